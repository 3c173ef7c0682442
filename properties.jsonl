{"id": "C01", "title": "Streamed reads return the file's bytes", "statement": "Indexing an opened .safetensors file with a tensor's name yields exactly the bytes that the file stores between that tensor's data offsets, whatever was read before and whatever the buffer size.", "quantifier": "every file content, every buffer size, every finite history of tensor reads (any order, repeats included)", "why_tests_cant": "The internal read-ahead buffer makes a read depend on all earlier reads; the number of histories is unbounded and a stale-buffer bug shows only for particular offset/size combinations.", "anchors": ["sd_mecha/streaming.py: InSafetensorsDict.__getitem__, _ensure_buffer, _load_tensor"]}
{"id": "C02", "title": "Later reads never change a tensor already handed out", "statement": "A tensor obtained from an opened file keeps its value while any other tensors are read from the same file.", "quantifier": "every file, buffer size and history of reads, every earlier result and every continuation", "why_tests_cant": "Handed-out tensors are views of the shared buffer; an aliasing bug needs a specific pair of reads to show.", "anchors": ["sd_mecha/streaming.py: InSafetensorsDict._ensure_buffer, _load_tensor"]}
{"id": "C03", "title": "Modifying a tensor in place does not affect later reads of the input", "statement": "What an input file yields for a key does not depend on what merge methods did in place to tensors read earlier. (False of the code: a view of the buffer is handed out, and tensor_sum writes into its argument.)", "quantifier": "every history mixing reads and in-place writes", "why_tests_cant": "Depends on dtype equality, buffer residency and read order together.", "anchors": ["sd_mecha/streaming.py: InSafetensorsDict._load_tensor", "sd_mecha/extensions/builtin/merge_methods/__init__.py: tensor_sum, cast"]}
{"id": "C04", "title": "Listing and membership of an opened file", "statement": "Iterating over an opened file lists every tensor of the header exactly once, in increasing data offset, never '__metadata__'; len() is the number listed; indexing raises StateDictKeyError exactly for names that are not listed.", "quantifier": "every header (any number of entries, with or without __metadata__, in any order)", "why_tests_cant": "Header order and the optional metadata entry give unboundedly many cases.", "anchors": ["sd_mecha/streaming.py: InSafetensorsDict.keys, __len__, __getitem__, _read_header"]}
{"id": "C05", "title": "Written files read back exactly", "statement": "After any number of threads stored tensors under distinct keys in any interleaving and the output was closed, opening the file and indexing each key returns the same dtype, shape and bytes, and no other key exists.", "quantifier": "every number of threads, every interleaving of their steps, every sequence of keys and tensor sizes, every buffer size", "why_tests_cant": "Thread interleavings and flush boundaries cannot be enumerated by tests.", "anchors": ["sd_mecha/streaming.py: OutSafetensorsDict.__setitem__, _flush_buffer, close", "sd_mecha/streaming.py: InSafetensorsDict"]}
{"id": "C06", "title": "Data section layout", "statement": "In a closed output file the byte ranges of different keys never overlap, they all lie inside the file, and when keys are distinct they tile the data section without gaps.", "quantifier": "every interleaving and every sequence of writes", "why_tests_cant": "Offsets are assigned at flush time in schedule-dependent order.", "anchors": ["sd_mecha/streaming.py: OutSafetensorsDict._flush_buffer, close"]}
{"id": "C07", "title": "Reserved header space suffices", "statement": "If every tensor written has the shape and dtype announced when the output was created, the header written on close is never longer than the space reserved for it, so no data is moved.", "quantifier": "every set of keys with shapes/dtypes, every subset written, every order of writes and flushes", "why_tests_cant": "The worst case is over all permutations of all size assignments.", "anchors": ["sd_mecha/streaming.py: OutSafetensorsDict._init_buffer, close"]}
{"id": "C08", "title": "Data relocation preserves data", "statement": "If the header does not fit the reserved space, close() moves the data section so that every tensor still reads back exactly. (With a buffer size of zero the code raises instead.)", "quantifier": "every data length, header growth and chunk size", "why_tests_cant": "Overlapping moves go wrong only for particular size relations.", "anchors": ["sd_mecha/streaming.py: OutSafetensorsDict.close"]}
{"id": "C09", "title": "Per-thread buffer bound", "statement": "A thread's write buffer never holds more than max(minimum_buffer_size, size of the tensor being written) bytes, and never overflows.", "quantifier": "every write history of a thread", "why_tests_cant": "Buffer resizing depends on the whole history.", "anchors": ["sd_mecha/streaming.py: OutSafetensorsDict.__setitem__, _flush_buffer"]}
{"id": "C10", "title": "Bytes written equal the tensor's elements in row-major order", "statement": "The bytes stored for a tensor are its elements in row-major order of its shape. (Holds for contiguous tensors that own their storage; false for transposed, sliced or expanded views.)", "quantifier": "every shape, stride, offset and storage", "why_tests_cant": "Layouts are unbounded; most tests use contiguous tensors.", "anchors": ["sd_mecha/streaming.py: tensor_to_bytes, OutSafetensorsDict.__setitem__", "sd_mecha/extensions/builtin/model_configs/convert_sdxl_kohya_to_original.py: res.T"]}
{"id": "C11", "title": "Short OS transfers", "statement": "Reads and writes stay exact when the operating system transfers fewer bytes than asked in one call. (False of the code: return values of unbuffered read/write are ignored; proved only when transfers are complete.)", "quantifier": "every per-call transfer limit", "why_tests_cant": "Needs tensors larger than 2 GiB to observe on Linux.", "anchors": ["sd_mecha/streaming.py: self.file.readinto, self.file.write"]}
{"id": "C12", "title": "Quoted strings survive tokenisation", "statement": "For every string without a line break, quoting it as the serializer does and tokenising the result gives back one token holding the same string, wherever it stands in a line.", "quantifier": "every string over all characters, every context of surrounding arguments", "why_tests_cant": "Escape handling depends on every combination of backslashes, quotes and spaces.", "anchors": ["sd_mecha/serialization.py: SerializerVisitor.__serialize_value, deserialize.tokenize"]}
{"id": "C13", "title": "Recipe round trip", "statement": "deserialize(serialize(r)) rebuilds the recipe r: same methods, arguments, paths, configs, merge spaces and literal values. (False for booleans, for positional strings containing '=', for infinities/nan and some others; proved for all recipes outside these.)", "quantifier": "every recipe graph of any depth and width", "why_tests_cant": "Recipe trees are unbounded and the format is whitespace/quote sensitive.", "anchors": ["sd_mecha/serialization.py: serialize, deserialize, SerializerVisitor"]}
{"id": "C14", "title": "Shared instructions and backward references", "statement": "The serialized text never contains the same instruction twice, and every &i in it refers to an earlier line.", "quantifier": "every recipe", "why_tests_cant": "Unbounded recipes.", "anchors": ["sd_mecha/serialization.py: SerializerVisitor.__add_instruction"]}
{"id": "C15", "title": "Malformed recipe text is rejected", "statement": "deserialize raises on a wrong or missing version line, an unknown command, a forward or out-of-range reference, or mismatched quotes; it never returns a recipe for such text.", "quantifier": "every text", "why_tests_cant": "Infinitely many malformed inputs.", "anchors": ["sd_mecha/serialization.py: deserialize"]}
{"id": "C16", "title": "Comments and indentation are ignored", "statement": "Inserting comment lines anywhere after the version line, or adding spaces around lines, does not change the recipe obtained.", "quantifier": "every text and every set of insertion points", "why_tests_cant": "Comment lines must not shift reference numbering at any position.", "anchors": ["sd_mecha/serialization.py: deserialize.parse"]}
{"id": "C17", "title": "Serialized text is stable", "statement": "serialize(deserialize(serialize(r))) == serialize(r).", "quantifier": "every recipe of the round-trip class", "why_tests_cant": "Unbounded recipes.", "anchors": ["sd_mecha/serialization.py: serialize, deserialize"]}
{"id": "C18", "title": "Numeric scalars survive the text format", "statement": "Every integer, and every finite float, given as a parameter survives serialization; booleans do not (they are printed as True/False, which the reader rejects).", "quantifier": "every integer; every float with the assumed repr contract", "why_tests_cant": "All integers.", "anchors": ["sd_mecha/serialization.py: __serialize_value, get_arg_value"]}
{"id": "C19", "title": "Conversion chains are valid and shortest", "statement": "When convert() finds a chain of registered converters from the source to the target config, the chain starts at the source, each converter consumes what the previous one produced, it ends at the target, and no shorter chain exists.", "quantifier": "every finite converter graph (multi-edges, cycles included), every start and goal", "why_tests_cant": "All graphs.", "anchors": ["sd_mecha/conversion.py: dijkstra, create_conversion_recipe"]}
{"id": "C20", "title": "Conversion search is complete and terminates", "statement": "The search terminates on every graph and reports no chain only if the target is unreachable.", "quantifier": "every finite converter graph, start and goal", "why_tests_cant": "All graphs.", "anchors": ["sd_mecha/conversion.py: dijkstra"]}
{"id": "C21", "title": "Converters are applied in order", "statement": "The recipe returned by convert() nests the converters in chain order around the input recipe and its resulting model config is the target config.", "quantifier": "every chain and recipe", "why_tests_cant": "All chains.", "anchors": ["sd_mecha/conversion.py: create_conversion_recipe, convert"]}
{"id": "C22", "title": "Argument binding matches Python calls", "statement": "Calling a merge method binds positional, keyword and default arguments to parameters as an ordinary Python call would, and raises if a call would. (False of the code when an argument is given both positionally and by keyword: the positional one is silently dropped.)", "quantifier": "every signature and every call", "why_tests_cant": "All signatures times all calls.", "anchors": ["sd_mecha/extensions/merge_methods.py: MergeMethod.create_recipe"]}
{"id": "C23", "title": "Merge-space checking is sound", "statement": "A merge node can be built only if each argument's merge space is allowed by its parameter and all parameters sharing a symbol received the same space; the node's space is then the one the symbol stands for, or the declared one.", "quantifier": "every signature and assignment of merge spaces", "why_tests_cant": "All signatures and assignments.", "anchors": ["sd_mecha/extensions/merge_methods.py: MergeMethod.get_return_merge_space, get_input_merge_spaces", "sd_mecha/recipe_nodes.py: MergeRecipeNode"]}
{"id": "C24", "title": "Config checking is sound", "statement": "If the resulting config of a merge node is computed without error then all arguments whose parameter has no declared config agree with one config (the returned one), and all others have their declared config.", "quantifier": "every signature and assignment of configs", "why_tests_cant": "All signatures and assignments.", "anchors": ["sd_mecha/extensions/merge_methods.py: MergeMethod.get_return_config"]}
{"id": "C25", "title": "Parameter index tables cover all arguments", "statement": "For any accepted number of positional arguments, the per-parameter tables (types, spaces, configs) have exactly one entry per argument, varargs included.", "quantifier": "every signature and argument count", "why_tests_cant": "All counts.", "anchors": ["sd_mecha/extensions/merge_methods.py: FunctionArgs.as_dict, args_varargs"]}
{"id": "C26", "title": "Fallback operator", "statement": "(a | b) yields a's value for every key a has, b's value for keys only b has, and lacks the keys neither has; other errors of a propagate. It is associative.", "quantifier": "every pair/triple of recipes, every key", "why_tests_cant": "All recipes and keys.", "anchors": ["sd_mecha/extensions/builtin/merge_methods/__init__.py: fallback", "sd_mecha/recipe_nodes.py: RecipeNode.__or__"]}
{"id": "C27", "title": "pick_component and omit_component partition a recipe", "statement": "For every key of the config, exactly one of pick_component(a,c) and omit_component(a,c) can provide it, and pick | omit gives back a.", "quantifier": "every recipe, component and key", "why_tests_cant": "All recipes.", "anchors": ["sd_mecha/extensions/builtin/merge_methods/__init__.py: pick_component, omit_component"]}
{"id": "C28", "title": "Key locality", "statement": "The value merged for a key depends only on what the inputs hold for that key (and its aliases), for recipes whose methods only access the current key.", "quantifier": "every recipe, every pair of input sets agreeing on that key", "why_tests_cant": "All recipes and inputs; basis of the streaming claim.", "anchors": ["sd_mecha/merging.py: KeyMergeVisitor, MergeNodeWrapperStateDict"]}
{"id": "C29", "title": "Schedule independence of merge output", "statement": "The output mapping does not depend on the number of threads nor on the order in which keys are processed.", "quantifier": "every recipe, thread count and completion order", "why_tests_cant": "All schedules.", "anchors": ["sd_mecha/merging.py: merge, _track_output"]}
{"id": "C30", "title": "Output keys and error behaviour", "statement": "merge() stores exactly the keys of the target config whose evaluation succeeds, skips those that raise StateDictKeyError, and raises if any other error occurs.", "quantifier": "every recipe, config and outcome per key", "why_tests_cant": "All combinations.", "anchors": ["sd_mecha/merging.py: merge, _track_output"]}
{"id": "C31", "title": "A real error is never mistaken for a missing key", "statement": "If evaluating some argument of a merge node fails with an error other than a missing key, the merge raises that error. (False of the code: when several arguments fail, only the error of the one evaluated last is kept, so a missing key can hide a real error.)", "quantifier": "every recipe node and outcome of its arguments", "why_tests_cant": "All combinations of outcomes and depths.", "anchors": ["sd_mecha/merging.py: ErrorHolder, KeyMergeVisitor.__visit_deeper_first"]}
{"id": "C32", "title": "Casting inputs is a homomorphism", "statement": "Merging with merge_device/merge_dtype equals merging the same recipe with every input model and numeric literal cast first; the user's recipe object keeps its structure.", "quantifier": "every recipe, device and dtype", "why_tests_cant": "All recipes.", "anchors": ["sd_mecha/merging.py: CastInputDicts"]}
{"id": "C33", "title": "Alias lookup", "statement": "A key is read under its own name if present, otherwise under the first of its aliases that is present, and is missing only if none is present.", "quantifier": "every state dict, alias list and key", "why_tests_cant": "All alias lists.", "anchors": ["sd_mecha/merging.py: KeyMergeVisitor.__visit_sd"]}
{"id": "C34", "title": "Scalar parameters reach merge methods unchanged", "statement": "A number given for an int or float parameter arrives in the merge method with that value. (False with the default merge_dtype: literals pass through float32; proved for values exact in float32.)", "quantifier": "every integer/dyadic value", "why_tests_cant": "All values.", "anchors": ["sd_mecha/merging.py: cast_node_value, CastInputDicts"]}
{"id": "C35", "title": "Argument evaluation order is unobservable on success", "statement": "The order in which arguments are evaluated (deepest first) does not affect the merged value when all arguments succeed.", "quantifier": "every node and permutation of its arguments", "why_tests_cant": "All permutations.", "anchors": ["sd_mecha/merging.py: KeyMergeVisitor.__visit_deeper_first"]}
{"id": "C36", "title": "Input files are closed", "statement": "After merge() returns or raises, every input file it opened is closed and no recipe node keeps a reference to it. (False for literal dicts that mix values and nodes; proved otherwise.)", "quantifier": "every recipe, every point at which loading or merging fails", "why_tests_cant": "All failure points.", "anchors": ["sd_mecha/merging.py: open_input_dicts, LoadInputDictsVisitor, CloseInputDictsVisitor"]}
{"id": "C37", "title": "Each file is opened once", "statement": "During one merge, each distinct resolved path is opened at most once, and all nodes of that path share it.", "quantifier": "every recipe", "why_tests_cant": "All recipes and sharing patterns.", "anchors": ["sd_mecha/merging.py: LoadInputDictsVisitor.__load_dict"]}
{"id": "C38", "title": "Merging does not depend on earlier merges (ema)", "statement": "The set of keys merge() considers depends only on its arguments. (False of the code: omit_ema deletes from the config's cached metadata, so later merges with omit_ema=False also omit ema keys.)", "quantifier": "every history of merges in one process", "why_tests_cant": "All histories.", "anchors": ["sd_mecha/merging.py: merge (omit_ema)", "sd_mecha/extensions/model_configs.py: ModelConfigImpl.metadata"]}
{"id": "C39", "title": "Structural configs are the intersection of the inputs' keys", "statement": "For inputs of unknown architecture, the merged keys are the keys common to all of them. (False when the intersection becomes empty before the last input.)", "quantifier": "every list of inputs", "why_tests_cant": "All lists of key sets.", "anchors": ["sd_mecha/merging.py: LoadInputDictsVisitor.__determine_model_config"]}
{"id": "C40", "title": "Reusing a node in a second recipe", "statement": "The keys produced for a recipe do not depend on other recipes its nodes were merged in before. (False of the code: the inferred structural config is stored in the node.)", "quantifier": "every history of merges sharing nodes", "why_tests_cant": "All histories.", "anchors": ["sd_mecha/merging.py: LoadInputDictsVisitor.visit_literal, visit_model"]}
{"id": "C41", "title": "Config inference ranks by matched keys", "statement": "infer_model_configs returns groups of configs by decreasing number of matched keys, each group holding exactly the examined configs with that number, each matching at least 10% of the keys.", "quantifier": "every registry and state dict", "why_tests_cant": "All registries.", "anchors": ["sd_mecha/merging.py: infer_model_configs"]}
{"id": "C42", "title": "Mandatory key check is exact", "statement": "With check_mandatory_keys, loading raises iff some non-optional key of the config is present neither under its name nor under any alias.", "quantifier": "every config and state dict", "why_tests_cant": "All.", "anchors": ["sd_mecha/merging.py: check_model_config"]}
{"id": "C43", "title": "Registries", "statement": "Registering under a used identifier raises and changes nothing (configs, merge spaces, formats); resolve returns exactly what was registered; merge methods are replaced silently.", "quantifier": "every sequence of registrations and lookups", "why_tests_cant": "All histories.", "anchors": ["sd_mecha/extensions/model_configs.py: register, register_aux, resolve", "sd_mecha/extensions/merge_spaces.py: register_merge_space, resolve", "sd_mecha/extensions/model_formats.py", "sd_mecha/extensions/merge_methods.py: merge_method, resolve"]}
{"id": "C44", "title": "Config identifiers split uniquely", "statement": "An accepted model config identifier is exactly '<architecture>-<implementation>' with the two parts the accessors return; others are rejected.", "quantifier": "every string", "why_tests_cant": "All strings.", "anchors": ["sd_mecha/extensions/model_configs.py: ModelConfigImpl.__post_init__, get_architecture_identifier"]}
{"id": "C45", "title": "keys(), metadata() and aliases() of a config agree", "statement": "The three views of a config list the same keys in the same order and describe the same key data, whatever was called before.", "quantifier": "every config", "why_tests_cant": "All configs and call orders.", "anchors": ["sd_mecha/extensions/model_configs.py: ModelConfigImpl, StructuralModelConfig"]}
{"id": "C46", "title": "Extra keys are forwarded", "statement": "With omit_extra_keys=False the output also considers every key of every input of the target config, and keys the recipe itself provides keep the recipe's value.", "quantifier": "every recipe and input key sets", "why_tests_cant": "All.", "anchors": ["sd_mecha/merging.py: copy_extra_keys, ForwardableNodesVisitor"]}
{"id": "C47", "title": "Region of tensor_sum", "statement": "For any width and offset, the computed row range satisfies 0 <= start <= end <= n and covers width*n rows up to rounding.", "quantifier": "every rational width, offset and n", "why_tests_cant": "Continuum of parameters.", "anchors": ["sd_mecha/extensions/builtin/merge_methods/__init__.py: ratio_to_region"]}
{"id": "C48", "title": "tensor_sum copies exactly the region", "statement": "tensor_sum returns b's rows inside the (possibly wrapped) region and a's rows outside.", "quantifier": "all tensors and parameters", "why_tests_cant": "Continuum.", "anchors": ["sd_mecha/extensions/builtin/merge_methods/__init__.py: tensor_sum"]}
{"id": "C49", "title": "Binomial coefficients", "statement": "The helper used for overlap probabilities computes the binomial coefficient exactly.", "quantifier": "all n, k (ignoring int64 overflow)", "why_tests_cant": "All integers.", "anchors": ["sd_mecha/extensions/builtin/merge_methods/__init__.py: binomial_coefficient_np"]}
{"id": "C50", "title": "Overlap probabilities sum to one", "statement": "The distribution over subsets used by dropout sums to one and gives probability p to the empty set.", "quantifier": "all n, p, overlap, emphasis", "why_tests_cant": "Continuum.", "anchors": ["sd_mecha/extensions/builtin/merge_methods/__init__.py: overlapping_sets_pmf"]}
{"id": "C51", "title": "clamp stays within bounds", "statement": "clamp() returns values between the smallest and largest bound, and leaves values already inside unchanged when stiffness is 0.", "quantifier": "all tensors, all bounds, stiffness in [0,1]", "why_tests_cant": "Continuum.", "anchors": ["sd_mecha/extensions/builtin/merge_methods/__init__.py: clamp"]}
{"id": "C52", "title": "TIES sign election", "statement": "Every nonzero entry of ties_sum has the elected sign and is the mean of the trimmed deltas of that sign; the result does not depend on the order of the models; with one model and k=1 it is that model.", "quantifier": "all lists of deltas", "why_tests_cant": "Continuum, permutations.", "anchors": ["sd_mecha/extensions/builtin/merge_methods/__init__.py: ties_sum, ties_sum_deltas, filter_top_k"]}
{"id": "C53", "title": "weighted_sum and n_average", "statement": "weighted_sum returns a for alpha=0 and b for alpha=1 and is within the documented tolerance of (1-alpha)a+alpha b; n_average is order independent and lies between min and max.", "quantifier": "all tensors and alpha", "why_tests_cant": "Continuum.", "anchors": ["sd_mecha/extensions/builtin/merge_methods/__init__.py: weighted_sum, n_average"]}
{"id": "C54", "title": "add_difference inverts subtract", "statement": "a + (b - a) = b, and the three-model wrapper yields a + alpha*(b - c).", "quantifier": "all tensors", "why_tests_cant": "Continuum.", "anchors": ["sd_mecha/extensions/builtin/merge_methods/__init__.py: add_difference, subtract", "sd_mecha/merge_method_wrappers.py: add_difference"]}
{"id": "C55", "title": "Perpendicular component is orthogonal", "statement": "perpendicular_component(a,b) is orthogonal to a and equals b minus a multiple of a.", "quantifier": "all tensors", "why_tests_cant": "Continuum.", "anchors": ["sd_mecha/extensions/builtin/merge_methods/__init__.py: perpendicular_component"]}
{"id": "C56", "title": "Geometric median stays in the hull", "statement": "Every iterate and the result of geometric_median are convex combinations of the inputs, for every maxiter.", "quantifier": "all inputs, eps>0, iteration counts", "why_tests_cant": "Unbounded iterations.", "anchors": ["sd_mecha/extensions/builtin/merge_methods/__init__.py: geometric_median, weighted_average_tuple"]}
{"id": "C57", "title": "Difference masks are bounded", "statement": "train_difference_mask, add_opposite_mask and add_strict_opposite_mask with alpha>=0 are within [0, 1.8 alpha], [0, 2 alpha] and [0, 2 alpha].", "quantifier": "all reals", "why_tests_cant": "Continuum.", "anchors": ["sd_mecha/extensions/builtin/merge_methods/__init__.py: train_difference_mask, add_opposite_mask, add_strict_opposite_mask"]}
{"id": "C58", "title": "LoRA composition", "statement": "Converting a linear LoRA gives (alpha/dim) * up @ down whichever factor the scale is folded into.", "quantifier": "all matrices", "why_tests_cant": "Continuum.", "anchors": ["sd_mecha/extensions/builtin/lycoris.py: compose_lora_up_down"]}
{"id": "C59", "title": "LyCORIS conversion uses the config's own key prefix", "statement": "Converting a network with the 'lycoris' prefix reads keys with that prefix. (False of the code: the converter closure sees the last registered config, so 'lora_' keys are read.)", "quantifier": "every base config list and key", "why_tests_cant": "Depends on registration order.", "anchors": ["sd_mecha/extensions/builtin/lycoris.py: _register_all_lycoris_configs"]}
{"id": "C60", "title": "Block-wise parameters cover the model", "statement": "Every key of sd1-ldm / sdxl-sgm is mapped by the block converters to a block name of the supermerger_blocks config.", "quantifier": "every key of the config tables", "why_tests_cant": "Finite but thousands of keys; also for every string the shape of the result.", "anchors": ["sd_mecha/extensions/builtin/model_configs/convert_sd1_blocks.py", "sd_mecha/extensions/builtin/model_configs/convert_sdxl_blocks.py"]}
{"id": "C61", "title": "Flux conversions are inverse", "statement": "Converting full -> diffuser_only -> full gives the original value on diffusion keys and lacks the others; diffuser_only -> full -> diffuser_only is the identity. ", "quantifier": "every state dict and key", "why_tests_cant": "All keys.", "anchors": ["sd_mecha/extensions/builtin/model_configs/convert_flux.py"]}
{"id": "C62", "title": "Wrapper functions build valid recipes", "statement": "Each exported wrapper (add_difference, add_perpendicular, copy_region, dropout, ties_with_dare, ...) builds a recipe for well-spaced inputs. (False: dropout and ties_with_dare pass keywords their methods do not have and always raise.)", "quantifier": "all inputs", "why_tests_cant": "All inputs.", "anchors": ["sd_mecha/merge_method_wrappers.py"]}
{"id": "C63", "title": "Defaults precedence", "statement": "For every option, Defaults.merge passes the call's value if given, else the instance default, else merge()'s own default. (False for tqdm.)", "quantifier": "all combinations of given/not given", "why_tests_cant": "2^13 combinations times values.", "anchors": ["sd_mecha/helpers.py: Defaults.merge", "sd_mecha/merging.py: merge"]}
{"id": "C64", "title": "Operators + and -", "statement": "a + b on recipes adds the delta to the weight whichever side it stands on, and rejects two weights or two deltas.", "quantifier": "all recipes", "why_tests_cant": "All recipes.", "anchors": ["sd_mecha/recipe_nodes.py: RecipeNode.__add__, __sub__"]}
{"id": "C65", "title": "Buffer budget", "statement": "The read-ahead and write buffers configured by merge() sum to at most total_buffer_size when the models counted are those opened.", "quantifier": "all recipes, thread counts and sizes", "why_tests_cant": "All sizes.", "anchors": ["sd_mecha/merging.py: merge", "sd_mecha/recipe_nodes.py: ModelsCountVisitor"]}
{"id": "C66", "title": "Model path search", "statement": "A relative model path resolves to the first model_dir in which it exists, else to itself; an absolute path is never redirected.", "quantifier": "all directory lists and file systems", "why_tests_cant": "All.", "anchors": ["sd_mecha/merging.py: LoadInputDictsVisitor.__load_dict, _get_output_dict"]}
{"id": "C67", "title": "Merging to a file", "statement": "A merge whose output is a file, with any number of threads, yields a file that opens, lists exactly the keys that have a value, and reads back each as the tensor computed.", "quantifier": "every outcome per key, thread count and interleaving of workers and writes", "why_tests_cant": "All schedules.", "anchors": ["sd_mecha/merging.py: merge, _get_output_dict, _track_output", "sd_mecha/streaming.py: OutSafetensorsDict"]}
{"id": "C68", "title": "Merging leaves the inputs unchanged", "statement": "Computing a merge method does not change the tensors given to it. (False of tensor_sum: it writes the region into one of its arguments, so a state dict given by the user is modified.)", "quantifier": "all tensors and regions", "why_tests_cant": "Tests compare results, and not the arguments afterwards; which argument is overwritten depends on the region.", "anchors": ["sd_mecha/extensions/builtin/merge_methods/__init__.py: tensor_sum"]}
{"id": "C69", "title": "Dropout with rescaling is unbiased", "statement": "With rescale=1, the expected value of an entry of dropout over the random masks is the average of the deltas times alpha, for every number of models, probability and overlap for which the probabilities are defined.", "quantifier": "all numbers of models, deltas, probabilities and overlaps", "why_tests_cant": "The result is random; expectations over all 2^n subsets for all n.", "anchors": ["sd_mecha/extensions/builtin/merge_methods/__init__.py: dropout, overlapping_sets_pmf"]}
{"id": "C70", "title": "Dropout returns a value", "statement": "dropout returns a value for every documented setting, its defaults included. (False: AttributeError when floor(overlap) is odd, NaN probabilities for probability 0.)", "quantifier": "all numbers of models and all settings", "why_tests_cant": "All combinations.", "anchors": ["sd_mecha/extensions/builtin/merge_methods/__init__.py: dropout, overlapping_sets_pmf"]}
{"id": "C71", "title": "TIES sign election flag", "statement": "ties_sum elects the sign by the mass of the deltas by default and by their count with vote_sgn=True, as its documentation says. (False: the flag is inverted.)", "quantifier": "all deltas", "why_tests_cant": "For most inputs both elections agree.", "anchors": ["sd_mecha/extensions/builtin/merge_methods/__init__.py: ties_sum_deltas"]}
{"id": "C72", "title": "Flags of ties_sum_extended", "statement": "With its default flags ties_sum_extended is the plain TIES sum, apply_median=True uses the geometric median and apply_stock=True the model stock factor. (False: both flags are inverted.)", "quantifier": "all deltas and iteration counts", "why_tests_cant": "For many inputs the results are close.", "anchors": ["sd_mecha/extensions/builtin/merge_methods/__init__.py: ties_sum_extended"]}
{"id": "C73", "title": "Geometric median beats the average", "statement": "The sum of distances from the result of geometric_median to the models is at most that from the average of the models plus eps/2 per model, for every maxiter, ftol and eps > 0.", "quantifier": "all lists of tensors, iteration counts and tolerances", "why_tests_cant": "All inputs and any number of iterations.", "anchors": ["sd_mecha/extensions/builtin/merge_methods/__init__.py: geometric_median"]}
{"id": "C74", "title": "Spherical interpolation", "statement": "slerp gives a for alpha=0 and b for alpha=1 for all tensors, zero or parallel ones included; for tensors neither zero nor parallel the norm is interpolated linearly and the angle from a is alpha times the angle between a and b.", "quantifier": "all tensors and alpha in [0,1]", "why_tests_cant": "All shapes and values; the degenerate cases go through NaN.", "anchors": ["sd_mecha/extensions/builtin/merge_methods/__init__.py: slerp"]}
{"id": "C75", "title": "Selection of the larger delta", "statement": "Every entry of select_max_delta is a's or b's entry; alpha=0 gives a; alpha=1 gives b. (The last is false: tensors with one entry and entries equal to the mean give a.)", "quantifier": "all tensors and alpha", "why_tests_cant": "All shapes; the degenerate cases go through NaN.", "anchors": ["sd_mecha/extensions/builtin/merge_methods/__init__.py: select_max_delta"]}
{"id": "C76", "title": "SD1 conversion from the layout of kohya", "statement": "Converting an SD1 model from sd1-kohya to sd1-ldm, every required key gets the tensor that stands for the same layer, with the shape the config gives; every tensor of the source is used, none twice. (False for the normalization of the attention in the autoencoder: the four keys are lost.)", "quantifier": "every key of the two config tables", "why_tests_cant": "1130 keys; a test would need a full model and an independent account of the layouts.", "anchors": ["sd_mecha/extensions/builtin/model_configs/convert_sd1_kohya_to_original.py", "sd_mecha/extensions/builtin/model_configs/convert_huggingface_sd_vae_to_original.py"]}
{"id": "C77", "title": "SDXL conversion from the layout of kohya", "statement": "The same from sdxl-kohya to sdxl-sgm. (False for the whole autoencoder, whose keys are looked up under a prefix the source does not have, and for the attention biases of the second text encoder, which get shape [3, n] instead of [3n].)", "quantifier": "every key of the two config tables; for the autoencoder, every string", "why_tests_cant": "2500 keys.", "anchors": ["sd_mecha/extensions/builtin/model_configs/convert_sdxl_kohya_to_original.py", "sd_mecha/extensions/builtin/model_configs/convert_huggingface_sd_vae_to_original.py"]}
{"id": "C78", "title": "SDXL conversion from the layout of diffusers", "statement": "The same for the diffusion model from sdxl-diffusers_unet_only to sdxl-sgm. (False for the last attention and the upsampler of the first output blocks: 208 keys are lost.)", "quantifier": "every key of the two config tables", "why_tests_cant": "1684 keys.", "anchors": ["sd_mecha/extensions/builtin/model_configs/convert_sdxl_diffusers_unet_to_original.py"]}
{"id": "C79", "title": "Shipped conversions can be used", "statement": "Every conversion shipped with the package is between registered configs, and after import a chain of conversions leads from one shipped config to another exactly if they are the same, one is a LoRA config of the other, the other is the original layout of the one, or both of the latter in turn; and the identifier in a config's file is the one it is registered by. (False for Flux: its two conversions are in a module that is never imported, so convert raises both ways; and its two files give other identifiers than those they are registered by, so a config tells an architecture that is not in its identifier.)", "quantifier": "every shipped conversion and config, every pair of identifiers, every order in which the files are found", "why_tests_cant": "The module with the Flux conversions is never imported, so no test notices; that no chain exists is a statement about all chains.", "anchors": ["sd_mecha/extensions/builtin/model_configs/__init__.py", "sd_mecha/extensions/builtin/model_configs/convert_flux.py", "sd_mecha/extensions/builtin/model_configs/flux-flux.yaml", "sd_mecha/conversion.py"]}
{"id": "C80", "title": "Cosine interpolation", "statement": "add_cosine_a and add_cosine_b move each entry from a towards b, never past either: the weight of b is one minus the excess of the cosine similarity over alpha, within [0, 1]. A coefficient of one or more, as is the default, gives b.", "quantifier": "all real matrices, all coefficients", "why_tests_cant": "The similarity depends on whole columns or on the whole tensor; the clamp only matters outside of the cases a test picks.", "anchors": ["sd_mecha/extensions/merge_methods.py"]}
{"id": "C81", "title": "Model stock", "statement": "model_stock returns the average of the deltas, scaled row by row by a factor within [0, 1] that depends on how well they agree: equal deltas are returned unchanged, and the order of the models does not matter. (False for three models or more: only neighbouring models are compared, so the order matters; and for a single model, which raises.)", "quantifier": "any number of deltas of any size over the reals", "why_tests_cant": "The dependence on the order shows up only for models whose pairwise similarities differ.", "anchors": ["sd_mecha/extensions/merge_methods.py"]}
{"id": "C82", "title": "Geometric sum", "statement": "geometric_sum gives a for alpha = 0, b for alpha = 1, and for alpha in between a value between the two whose magnitude is the weighted geometric mean. (False for entries of opposite sign: the value is damped by a cosine and can leave the interval.)", "quantifier": "all nonzero reals a, b and all alpha", "why_tests_cant": "Needs complex powers of arbitrary signs; random tensors hide the entries concerned.", "anchors": ["sd_mecha/extensions/merge_methods.py"]}
{"id": "C83", "title": "Multiply by a quotient", "statement": "multiply_quotient returns a where a and b lie on the same side of c in magnitude, and otherwise moves a towards c, never past it; the result only depends on the arguments. (False for a single number as coefficient, as is the default: it raises for every tensor with a dimension; and the coefficient is changed in place, so that reusing it changes later results.)", "quantifier": "tensors of any shape over the nonzero reals", "why_tests_cant": "Aliasing across keys shows up only in a whole merge with a tensor coefficient.", "anchors": ["sd_mecha/extensions/merge_methods.py"]}
{"id": "C84", "title": "Crossover", "statement": "crossover lets the high frequencies of b through for a tilt in [0, 1], with a filter in [0, 1] that grows with the frequency and with alpha and equals alpha at the frequency 1 - alpha; the ends give a and b, tilt 1 the weighted sum; merging a with b and b with a splits their sum. (False for a tilt of exactly 2 and just below 4, where the filter jumps, and for single numbers and nearly equal tensors, where alpha is ignored and the tilt is used as the weight.)", "quantifier": "all shapes, tilts and coefficients; any linear transform with a left inverse for the Fourier transform", "why_tests_cant": "The exceptional tilts are single points.", "anchors": ["sd_mecha/extensions/merge_methods.py"]}
{"id": "C85", "title": "Truncation of the rank", "statement": "truncate_rank returns the delta cut down to the rank round(ratio * smaller side), at least 1: the result has at most that rank, the part cut off is orthogonal to the part kept, and a delta the sampled directions span is returned unchanged; a ratio of 1 changes nothing. (False for matrices with no more columns than rows: keeping the full rank raises; single columns always raise.)", "quantifier": "all shapes, all real matrices and ratios; any QR and SVD routines that meet their own contracts", "why_tests_cant": "The algorithm is randomized; the failing shapes depend on the ratio.", "anchors": ["sd_mecha/extensions/builtin/merge_methods/svd.py", "sd_mecha/extensions/merge_methods.py"]}
{"id": "C86", "title": "Rearranging by order", "statement": "top_k_tensor_sum with the default region gives the values of a, each as often, in the order of b, ties by position; an empty region gives a; any region gives at each entry one of the two. (False for an empty region at an offset other than zero, and for values that rounding to 32 bits makes smaller.)", "quantifier": "tensors of any length over the rationals; any rounding function", "why_tests_cant": "Needs values that are not exact in 32 bits, and a proof that no value is lost or doubled.", "anchors": ["sd_mecha/extensions/merge_methods.py"]}
{"id": "C87", "title": "Exchange of the averaged weights", "statement": "exchange_ema swaps each weight of the diffusion model of an sd1-ldm model with its average, both ways, and leaves all else alone; applied twice it changes nothing; models of other configs are left as they are. (A model without averages, though they are optional, has no weights left: proved as a negation of the last resort of the code, which is to keep the weight.)", "quantifier": "every key of the sd1-ldm table; every other config and string; any model", "why_tests_cant": "1374 paired keys, found by a search that could hit the wrong pair.", "anchors": ["sd_mecha/extensions/builtin/merge_methods/ema.py", "sd_mecha/extensions/builtin/model_configs/sd1-ldm.yaml"]}
{"id": "C88", "title": "Config of an input", "statement": "A config given with a model is kept. Otherwise the model gets the config of the parameter it is passed to if the model has a tenth of its keys, else the config that knows strictly more of its keys than all others examined; failing that a structural config, or an error if inference was asked for.", "quantifier": "all registries of distinct hashable configs, all files, parameters and earlier states", "why_tests_cant": "Needs all relative counts of matched keys, ties included.", "anchors": ["sd_mecha/merging.py: LoadInputDictsVisitor, infer_model_configs"]}
{"id": "C89", "title": "Shipped configs are recognised", "statement": "With the configs the library comes with, in any order of registration: a model with all required keys of one of them, whatever optional keys, and other keys known to none as long as they are at most nine tenths, gets this config; so does a LoRA with all its modules; in particular a file with exactly the keys of a config. (Not so for parts of a model that two configs know, such as the autoencoder shared by SD1 and SDXL, or weights of the SD1 text encoder under their older names, which its LoRA configs know as well.)", "quantifier": "all 30 shipped configs; all state dicts meeting the description", "why_tests_cant": "30 configs against each other, over tables of up to 2642 keys; which extra keys are harmless is not a finite question.", "anchors": ["sd_mecha/extensions/builtin/model_configs", "sd_mecha/extensions/builtin/lycoris.py", "sd_mecha/merging.py: infer_model_configs"]}
{"id": "C90", "title": "No name stands for two keys", "statement": "In each shipped model config all keys and aliases are pairwise different, so a tensor in a file is read for at most one key. (False for the LoRA configs made from sd1-ldm: the keys of a module all inherit the aliases of the key it is for.)", "quantifier": "all keys and aliases of the shipped tables", "why_tests_cant": "15000 names; an alias clash shows up only with a file that uses the alias.", "anchors": ["sd_mecha/extensions/builtin/model_configs", "sd_mecha/extensions/builtin/lycoris.py"]}
{"id": "C91", "title": "LoRA modules do not collide", "statement": "Within each shipped config, two keys for which a LoRA can have a module have different modules, though dots become underscores and a trailing weight is dropped; so each LoRA config has exactly three keys for each of these keys.", "quantifier": "all keys of the shipped tables, every prefix", "why_tests_cant": "Names such as a.b_c and a_b.c would collide; no test goes through all pairs.", "anchors": ["sd_mecha/extensions/builtin/lycoris.py"]}
{"id": "C92", "title": "Mappings of recipes agree", "statement": "A mapping passed where a recipe is expected must have values of one kind: numbers, strings, tensors, nothing, or recipes; otherwise it is a TypeError. A mapping of recipes is accepted if and only if all of them have the same model config and the same merge space, which the mapping then has; otherwise it is a RuntimeError. (False for a mapping wrapped by literal: kinds may be mixed unless the first value is a recipe, and the merge space given is not compared with that of the recipes.)", "quantifier": "all mappings of values, recipes of any depth", "why_tests_cant": "Pairs of kinds, configs and spaces in any position of a mapping of any size.", "anchors": ["sd_mecha/extensions/merge_methods.py: value_to_node", "sd_mecha/recipe_nodes.py: LiteralRecipeNode", "sd_mecha/helpers.py: literal"]}
{"id": "C93", "title": "Rotation of neurons", "statement": "rotate with alignment 1 and alpha 0 rotates and shifts a such that it comes closest to b among all rotations and shifts; other whole alignments apply the same rotation that many times, also backwards; alpha blends with b in the frame reached; alignment and alpha both 0 give a, both 1 give b; an alignment between 0 and 1 rotates part of the way. (False: the parameters are declared as tensors but indexed as state dicts, so no recipe with rotate evaluates at all; and called with state dicts, alignments up to one half do not rotate, while the map for other fractions need not be a rotation.)", "quantifier": "all real matrices, whole alignments and blends; any SVD and eigenvalue routines that meet their own contracts", "why_tests_cant": "Optimality over all rotations is not a finite question; the SVD comes with arbitrary signs.", "anchors": ["sd_mecha/extensions/builtin/merge_methods/svd.py", "sd_mecha/extensions/merge_methods.py"]}
{"id": "C94", "title": "Accepted declarations are usable", "statement": "The decorator accepts a function exactly when every parameter and the result are annotated, parameters with defaults are in the space param or declare none, the result declares a config if all parameters do, and, if its merge space is a symbol, some parameter declares merge spaces. Arguments left to their defaults then never make a call fail for merge spaces; a call whose arguments all have configs has a config; and a call whose arguments are all in accepted spaces has a merge space. (False: with no variadic argument the config can be unknown; and methods whose result's symbol no parameter uses, or whose result's space cannot be told from differing parameters, are accepted although every call raises; exactly which methods these are is proved.)", "quantifier": "all annotated functions, all calls", "why_tests_cant": "Signatures of any shape; the checks look at the declaration, the failures come with calls.", "anchors": ["sd_mecha/extensions/merge_methods.py: Parameter, Return, MergeMethod"]}
{"id": "C95", "title": "Registered conversions take part", "statement": "Conversions the decorator accepts take part in convert, as an edge from the config of their parameter to that of their result, in the order of registration, and convert can call each with the recipe alone. (False: the check for a missing config compares a list with None, so conversions without input config, with only a variadic parameter, or without a config for the result are accepted, and from then on every call of convert raises; those with a keyword-only parameter without default are accepted and cannot be called.)", "quantifier": "all lists of registered conversions", "why_tests_cant": "One bad registration breaks unrelated calls later.", "anchors": ["sd_mecha/extensions/merge_methods.py: validate_config_conversion", "sd_mecha/conversion.py: convert"]}
{"id": "C96", "title": "What a failing merge leaves", "statement": "If a merge to a file raises, the error raised is that of a key, and the file left behind opens, lists only keys whose value was computed, and reads each back as computed; without threads these are exactly the keys before the failing one that have a value. (False with threads: the output is closed before the workers stop. A worker that has flushed its buffer but not listed it, or stores a tensor while the output is being closed, makes the file list tensors with the bytes of others or beyond its end; and a worker that stores its first tensor then makes close raise a RuntimeError in place of the real error, with no header written.)", "quantifier": "all schedules of workers, all moments of the failure", "why_tests_cant": "Needs a failure at one key and a particular interleaving of close with a worker.", "anchors": ["sd_mecha/merging.py: merge, _get_output_dict", "sd_mecha/streaming.py: OutSafetensorsDict"]}
{"id": "C97", "title": "The output may be the input", "statement": "Saving a recipe over a model to another file yields for each key what the recipe makes of the stored tensor. (False if the output path is that of the input: it is emptied before anything is read, no error is raised, and if the output's buffer holds the results they are those for a model of zeros; the model is lost.)", "quantifier": "all files, recipes over one model, sets of keys and buffer sizes", "why_tests_cant": "Tests write to fresh paths.", "anchors": ["sd_mecha/merging.py: merge, open_input_dicts, _get_output_dict", "sd_mecha/streaming.py: InSafetensorsDict, OutSafetensorsDict"]}
{"id": "C98", "title": "Threads that load from shared files", "statement": "With any number of threads whose loads from the same files interleave statement by statement, a merge of a recipe over models in files makes the assignments and has the outcome that evaluating the recipe on what the files store gives; every loaded tensor keeps what the file stores while others load; threads never block each other for good; and a returned merge to a file reads back as these values, with exactly the keys that have one.", "quantifier": "all recipes, merge methods that ask their state dicts for any keys, files, numbers of threads and interleavings", "why_tests_cant": "A seek or a buffer replaced between two statements of another thread shows up only in rare interleavings.", "anchors": ["sd_mecha/streaming.py: InSafetensorsDict", "sd_mecha/merging.py: merge, KeyMergeVisitor"]}
{"id": "C99", "title": "A merge delivers the recipe that was asked for", "statement": "If merge returns, the output has exactly the keys of the recipe's config (the fallback model's, if the recipe has none), without the ema component if asked, for which the recipe or else the fallback model has a value; each is that value, computed as if the inputs had been cast beforehand to the merge device and dtype, and moved to the output device and dtype. A file written also keeps in its header the text of the recipe that was asked for, without fallback and casts, which reads back as that recipe. With strict weight space the recipe and the fallback model are in weight space. (False where casting inputs changes which of several errors is met, see C32, and for the text of recipes outside the class of C13.)", "quantifier": "all recipes, fallback models, devices and dtypes, numbers of threads, interleavings of loads and of writes", "why_tests_cant": "The steps are tested one by one at most; the composition rewrites the recipe three times before a key is merged.", "anchors": ["sd_mecha/merging.py: merge, CastInputDicts, _get_output_dict", "sd_mecha/recipe_nodes.py: RecipeNode", "sd_mecha/streaming.py: OutSafetensorsDict"]}
{"id": "C100", "title": "Configs written as YAML read back", "statement": "to_yaml and then from_yaml gives a config with the same identifier, components, keys, shapes, dtypes, aliases and optional marks. (False: writing any config with a component raises, as a method is serialized in place of its value, so the script that makes configs from checkpoints fails for every checkpoint; and of a single key neither aliases nor whether it is optional are ever written.)", "quantifier": "every config, every document that is accepted, every checkpoint", "why_tests_cant": "The writer is never called in the package; that it fails on every config is no sample.", "anchors": ["sd_mecha/extensions/model_configs.py: to_yaml, from_yaml, serialize", "scripts/yaml_from_safetensors.py"]}
{"id": "C101", "title": "A config says what its document says", "statement": "A document with an identifier and components whose keys each give shape and dtype, and possibly aliases and optional, is accepted if the identifier is valid, whatever the order of the fields, and the config's keys, metadata and aliases are those of the document, in its order; of a key given twice in one mapping the last counts; which documents are accepted, and with which error others are refused, is as specified. (False that accepted configs are usable: keys that are no mappings are accepted and fail at first use, a string passes as list of aliases, and anything that torch has an attribute for passes as dtype.)", "quantifier": "all documents", "why_tests_cant": "Nested documents of any size with fields missing, doubled or of another kind.", "anchors": ["sd_mecha/extensions/model_configs.py: from_yaml, ModelConfigImpl, ModelComponent, KeyMetadata"]}
{"id": "C102", "title": "Configs are read at first use", "statement": "A config given by a file is known by the file's name without extension, without opening it; it is opened at the first other use, not again once read, and an attempt that fails leaves the next use free to succeed. (False that its identifier is the one in the file: that one plays no part, except that architecture and implementation come from it.)", "quantifier": "all sequences of uses, files that change or fail in between", "why_tests_cant": "Needs files that come and go between uses.", "anchors": ["sd_mecha/extensions/model_configs.py: LazyModelConfigBase, YamlModelConfig"]}
{"id": "C103", "title": "Casts round once", "statement": "A cast of a tensor to float64, float32, float16, bfloat16 or float8_e5m2 keeps its shape and rounds each entry, once, to the nearest number of the dtype, to the even one of two that are equally near; what is beyond the range becomes an infinity; infinities, NaN and signs of zeros stay. A cast to a wider dtype keeps every number, and casting back gives the same bytes unless there are NaNs. So a merge of nothing but a model, with default options, stores each of its tensors rounded once to float16, although it is computed in float64, and keeps float16 tensors without NaN byte by byte.", "quantifier": "all tensors of all floating point dtypes", "why_tests_cant": "Numbers of 64 bits; ties, subnormal numbers, overflow to infinity and double rounding need particular bits.", "anchors": ["sd_mecha/extensions/builtin/merge_methods/__init__.py: cast", "sd_mecha/merging.py: merge"]}
{"id": "C104", "title": "The example of the README", "statement": "merge(weighted_sum(a, b, alpha=x), output=file) with x from 0 to 1 and default options, for two float16 models of one architecture: the file has the keys of the architecture that both models hold; every tensor is float16 and has the shape it has in the models; every entry lies between those of the models, is the same if these are, and differs from the exact weighted sum by no more than rounding to float16 does, up to a factor of 1 + 2^-11; if x is a multiple of 2^-13 it is the exact sum rounded once, although x passes through float32 and each operation rounds. With x = 0 every tensor is that of a byte by byte, also where b lacks the key, and with x = 1 that of b.", "quantifier": "all pairs of float16 models, all architectures, all weights from 0 to 1, all numbers of threads and interleavings", "why_tests_cant": "The whole call from its arguments to the bytes read back; rounding in three formats for every pair of entries and weight.", "anchors": ["README.md", "sd_mecha/extensions/builtin/merge_methods/__init__.py: weighted_sum, cast", "sd_mecha/merging.py: merge", "sd_mecha/streaming.py: InSafetensorsDict, OutSafetensorsDict"]}
{"id": "C105", "title": "Methods that write into their arguments", "statement": "Some merge methods overwrite tensors they are given (tensor_sum, multiply_quotient). A merge nevertheless leaves the tensors of the user's state dicts as they were, and each key gets the value it would have if tensors could not be overwritten, also where a recipe uses an input several times; every cast to the merge dtype and device makes a copy that no one else has. (False for inputs that have the merge dtype and device already, by default float64 on the cpu: these are not copied, so the user's tensors are overwritten and recipes that use one twice yield other values.)", "quantifier": "all recipes, all merge methods that read, write and allocate tensors, all memories, all sequences of keys", "why_tests_cant": "Sharing of tensors between arguments depends on dtypes and on the whole recipe; tests merge fresh tensors once.", "anchors": ["sd_mecha/extensions/builtin/merge_methods/__init__.py: tensor_sum, multiply_quotient, cast", "sd_mecha/merging.py: merge, CastInputDicts, KeyMergeVisitor"]}
{"id": "C106", "title": "Merging a LoRA", "statement": "merge(add_difference(base, convert(lora, base), alpha=x), output=file) for a LoRA and a float16 base model: convert finds the LoRA's own conversion to its base model. Every layer of the base model for which the LoRA has alpha, down and up is in the output with the sum, computed in float64 and rounded to float16; in exact arithmetic the layer acts as that of the base model plus x * alpha / rank times the two layers of the module one after the other. Without a fallback model, as in examples/lora_merge.py, no other key is in the output: biases, norms and layers the LoRA leaves out are missing. With fallback_model=base they are those of the base model byte by byte.", "quantifier": "all base models and LoRAs, all architectures the library knows, all weights, all numbers of threads and interleavings", "why_tests_cant": "Which keys a LoRA has differs from file to file; the keys that are missing show only when the whole output is compared with the base model.", "anchors": ["examples/lora_merge.py", "sd_mecha/extensions/builtin/lycoris.py: _register_all_lycoris_configs, compose_lora_up_down", "sd_mecha/extensions/builtin/merge_methods/__init__.py: add_difference", "sd_mecha/conversion.py: convert", "sd_mecha/merging.py: merge"]}
{"id": "C107", "title": "Merging files by name", "statement": "A recipe that names files without saying their config, as in every example, is merged as if each had been given the config its tensor names call for (C88): the call that returned is a call on the recipe with these configs, so everything said of merges with known configs (C99, C103, C104, C106) holds of it. The configs are those written to the header, and the recipe that the caller holds has them afterwards. With default options what a method declares for its parameters does not influence the choice, as every input goes to a cast, which declares nothing.", "quantifier": "all recipes over files and state dicts of tensors, with or without fallback model, all registered configs, all contents of files", "why_tests_cant": "The choice looks at all registered configs and all keys of the file, and the recipe is rewritten before it is made.", "anchors": ["README.md", "sd_mecha/merging.py: merge, open_input_dicts, LoadInputDictsVisitor, CastInputDicts", "sd_mecha/streaming.py: InSafetensorsDict"]}
{"id": "C108", "title": "Recipes in files", "statement": "serialize(recipe, output=path) writes only that file, and deserialize of the path gives the recipe back, for recipes of the class of C13 and files named ....mecha, whatever the line ends of the system; other suffixes and missing files are a ValueError. If serialize raises, no file has changed. A list of lines without line ends is read like the text. (False: lines as readlines gives them keep their line ends, so examples/recipe_deserialize.py raises for every file, a RuntimeError if there are two lines; a file that reads back no longer does once an editor adds a line break at its end; and a carriage return inside a string comes back as a line break.)", "quantifier": "all recipes of the class, all paths, all contents of files", "why_tests_cant": "Any text in the file; the example is never run.", "anchors": ["sd_mecha/serialization.py: serialize, deserialize, deserialize_path", "examples/recipe_deserialize.py"]}
{"id": "C109", "title": "A merge with no reason to fail returns", "statement": "A recipe built by calling methods on models, numbers, tensors, strings and mappings with an entry is accepted by merge, with any fallback model in the same merge space and any devices and dtypes. The call returns if and only if, should strict weight space be asked for, recipe and fallback are in weight space, they have one config between them, and no key of it fails with anything but a missing key; whether it returns never depends on threads and their interleaving. To a file, it also writes one, for every positive buffer size, unless the header would need more than 2^64 bytes.", "quantifier": "all recipes, fallback models, options, numbers of threads and interleavings", "why_tests_cant": "That nothing else can go wrong in rewriting the recipe three times, planning, scheduling and writing is no finite question.", "anchors": ["sd_mecha/merging.py: merge, CastInputDicts, _get_output_dict", "sd_mecha/extensions/merge_methods.py: MergeMethod.create_recipe, value_to_node", "sd_mecha/streaming.py: OutSafetensorsDict"]}
{"id": "C110", "title": "Merged tensors keep their shape", "statement": "If a tensor has one shape in all models, then a recipe of the built-in merge methods gives a tensor of that shape under its name, or raises; weights may be numbers, tensors of the same shape or tensors that broadcast to it. When each method raises is told exactly. (False: model_stock, and TIES with apply_median, turn scalars, which SDXL checkpoints have, into vectors of one entry; select_max_white_delta raises for matrices and turns a column into a square; multiply_quotient takes only weights of the full shape. Tensors of different shapes are combined silently if they broadcast.)", "quantifier": "all shapes, all recipes, all numbers of models, all parameters and all branches the methods take", "why_tests_cant": "Shapes are unbounded, and broadcasting hides a wrong shape until the checkpoint is loaded.", "anchors": ["sd_mecha/extensions/builtin/merge_methods/__init__.py: all merge methods on tensors", "sd_mecha/extensions/builtin/merge_methods/svd.py: torch_svd_lowrank, get_approximate_basis"]}
{"id": "C111", "title": "Merging again gives the same file", "statement": "Two calls of merge with the same recipe and options, without threads or with threads=1, from input files that store the same tensors, write files that are equal byte by byte, whatever the buffer sizes and the layout of the input files: the header with the recipe and then the keys in the order of the config, blanks, and the tensors one behind the other in that order. With any number of threads the file has the same length if the tensors were announced with their shapes and dtypes. (False that the file is the same with several threads, which is the default: then the order of the tensors in the file, and so its hash, differs from call to call.)", "quantifier": "all recipes, options, input files, buffer sizes, and executions of one thread", "why_tests_cant": "Equality of files for every buffer size and every sequence of flushes; a run that agrees twice proves nothing.", "anchors": ["sd_mecha/merging.py: merge, ThisThreadExecutor", "sd_mecha/streaming.py: OutSafetensorsDict"]}
{"id": "C112", "title": "The recipe in a merged file makes the file again", "statement": "The header of a file written by merge holds the recipe that was given; whoever reads it with deserialize and merges it with the same options and inputs gets the same keys, dtypes, shapes and bytes with any number of threads, and the same file byte by byte without threads or with one. (False that the file alone suffices: fallback model, dtypes and devices are not in it, so calls that differ in these write the same recipe next to other tensors; and a recipe that holds tensors in memory is left out silently.)", "quantifier": "all recipes of the class of C13, options, input files, numbers of threads, interleavings and buffer sizes", "why_tests_cant": "Composition of merging, writing, reading and parsing, for every recipe.", "anchors": ["sd_mecha/merging.py: merge, _get_output_dict", "sd_mecha/serialization.py: serialize, deserialize", "sd_mecha/streaming.py: OutSafetensorsDict, InSafetensorsDict"]}
{"id": "C113", "title": "A merge that keeps extra keys", "statement": "With omit_extra_keys=False a merge that returns stores the keys of the recipe's config and, under their names in the config, all keys of the inputs of that config, without the ema component if asked; each key gets what it gets without the option, and where that is missing, what the first input holds that has the key, in the order in which the recipe mentions its inputs, then the fallback model's. No name of an input is lost. (False that such a tensor is in the dtype and on the device asked for: keys that are only forwarded are taken as they are, cast neither for the merge nor for the output.)", "quantifier": "all recipes, fallback models, options, input files and state dicts, numbers of threads and interleavings", "why_tests_cant": "Which keys are extra depends on the file; the recipe is rewritten four times before a key is merged.", "anchors": ["sd_mecha/merging.py: merge, copy_extra_keys, ForwardableNodesVisitor", "sd_mecha/recipe_nodes.py: RecipeNode", "sd_mecha/streaming.py: OutSafetensorsDict"]}
{"id": "C114", "title": "Recipes of sums, averages and differences are accurate", "statement": "merge(recipe, output=file) with default options, for a recipe of any size built from models of one architecture, in float64, float32, float16, bfloat16 or float8_e5m2, also mixed, with weighted_sum, n_average, add_difference and subtract: the file has the keys of the architecture that all models it needs hold; every tensor is float16 and has the shape it has in the models; every entry is the float16 number nearest to x, or an infinity if x is beyond 65520, where x differs from the exact value of the recipe, with weights rounded to float32, by no more than n 2^-52 times the value with absolute values throughout, n being the number of roundings nested in one another. If the exact value and those it is made of fit in 53 bits, x is the exact value, so the result is rounded once. weighted_sum takes weights within 1e-8 of zero and 1.001e-5 of one for zero and one, and then needs one of its models only.", "quantifier": "all such recipes of any depth, all models in these dtypes and all architectures, all finite weights, all numbers of threads and interleavings", "why_tests_cant": "Errors of rounding add up over recipes of any depth, for every combination of bits of all models.", "anchors": ["sd_mecha/extensions/builtin/merge_methods/__init__.py: weighted_sum, n_average, add_difference, subtract, cast", "sd_mecha/merging.py: merge", "sd_mecha/streaming.py: InSafetensorsDict, OutSafetensorsDict"]}
{"id": "C115", "title": "Caches of instructions", "statement": "A recipe whose instructions have caches (set_cache) is merged with the same results as without them, in any number of merges one after the other, by any number of threads in any interleaving: if the functions that use their cache compute an entry per key where there is none, store it and go on from it; if no two different instructions share a cache; and if the merges have the same merge dtype and device. Fallback model and output dtype may differ. Preparing the recipe, which rewrites it, leaves every cache on its instruction. More generally this holds of functions that are indifferent to which of the entries they may have stored is there. (False if two instructions share a cache; if the same recipe is merged again with another merge dtype; and if a function stores its entries rounded and goes on from the exact ones, as rotate does.)", "quantifier": "all recipes, all functions of this kind, all sequences of merges, numbers of threads and interleavings of accesses to caches", "why_tests_cant": "Threads interleave in unboundedly many ways, and a stale entry shows only in a later merge.", "anchors": ["sd_mecha/recipe_nodes.py: MergeRecipeNode.set_cache", "sd_mecha/merging.py: merge, CastInputDicts, KeyMergeVisitor", "sd_mecha/extensions/merge_methods.py: MergeMethod.merge_key", "sd_mecha/extensions/builtin/merge_methods/__init__.py: rotate"]}
{"id": "C116", "title": "Weights per block", "statement": "In place of a number a recipe can give a weight per block of SD1 or SDXL: convert(weights, model), where weights is a mapping from names of blocks to numbers, with or without a number for the rest (weights | number). Merged to a file with default options, every key gets the dtype, shape and bytes that it gets when the weight of its block is given as a number to the whole merge, with any numbers of threads. So weighted_sum(a, b, alpha=weights) of two float16 models is, key by key, what C104 says of the weight of the key's block. (False that a merge with too few weights raises: keys of blocks that have no weight are silently left out of the file, as merge does not check for missing keys by default.)", "quantifier": "all recipes with any number of such parameters, all weights, models and numbers of threads and interleavings", "why_tests_cant": "Every key of the file is compared with another merge; tests do not run a merge per block.", "anchors": ["README.md", "sd_mecha/extensions/builtin/model_configs/convert_sd1_blocks.py", "sd_mecha/extensions/builtin/model_configs/convert_sdxl_blocks.py", "sd_mecha/merging.py: merge, KeyMergeVisitor", "sd_mecha/extensions/merge_methods.py: value_to_node"]}
{"id": "C117", "title": "Components merged separately", "statement": "A recipe put together from others with pick_component, omit_component and |, in any nesting, as in examples/split_unet_text_encoder.py, gives a file in which every key is as in the file that one of these recipes gives when it is merged alone with the same options: the first, among those the key may come from by its component, that has it; a key is missing if and only if none of them has it. A name that is no component of the config makes every merge of such a selection raise.", "quantifier": "all recipes, nestings, configs, options without fallback model, models, numbers of threads and interleavings", "why_tests_cant": "Compares whole files of several merges, for every way to put recipes together.", "anchors": ["examples/split_unet_text_encoder.py", "sd_mecha/extensions/builtin/merge_methods/__init__.py: pick_component, omit_component, fallback", "sd_mecha/recipe_nodes.py: RecipeNode", "sd_mecha/merging.py: merge, MergeNodeWrapperStateDict"]}
{"id": "C118", "title": "Converting a checkpoint", "statement": "merge(convert(model, config), output=file) with default options, for a checkpoint and a conversion that comes with the library: the file has the keys of the new layout for which the checkpoint has all tensors that the conversion reads, and no others. Its tensors have the bytes of these tensors in float16, one behind the other, and the shape that goes with them; for a checkpoint in float16 without NaN these are the bytes of the checkpoint. A complete checkpoint of SD1 or SDXL in the layout of kohya, or of the diffusion model of SDXL in the layout of diffusers, so gives all required keys with the right shapes but a few. (False of these: the whole autoencoder of SDXL, a normalization of that of SD1 and two blocks of the diffusion model are silently missing, the biases of attentions in the second text encoder of SDXL come as matrices with three rows, and the text projection of SDXL, which the conversion transposes, is in the file with the bytes of the matrix that was not transposed.)", "quantifier": "all checkpoints of these layouts, all contents of files, numbers of threads and interleavings", "why_tests_cant": "Thousands of keys of files of gigabytes; a matrix that is not transposed has the right shape and loads without complaint.", "anchors": ["sd_mecha/extensions/builtin/model_configs/convert_sd1_kohya_to_original.py", "sd_mecha/extensions/builtin/model_configs/convert_sdxl_kohya_to_original.py", "sd_mecha/extensions/builtin/model_configs/convert_sdxl_diffusers_unet_to_original.py", "sd_mecha/extensions/builtin/model_configs/convert_huggingface_sd_vae_to_original.py", "sd_mecha/streaming.py: tensor_to_bytes", "sd_mecha/merging.py: merge"]}
{"id": "C119", "title": "What merging a key holds in memory", "statement": "While a key is merged, each thread holds few tensors at once, in a recipe without fallback model whose methods take values (no StateDict) and at most k arguments: a recipe that takes in one model after the other, as a loop over checkpoints builds it, holds at most 2k tensors however many models there are, casts included; any recipe of size n holds at most 2 + sqrt(2 (k - 1) n), n counting casts; and at most k - 1 per level of the recipe, plus 2. When the key is done only its result is held. So n threads hold at most n times as much, in every interleaving, however many keys there are. This counts the results of models and instructions that are held as arguments or about to be. (False that arguments are merged in the order that holds the least: the deepest goes first, and for any number there is a recipe that holds so many tensors although 4 would do with another order.)", "quantifier": "all recipes of any depth and number of models, all such methods, all keys, all contents of files, numbers of threads and interleavings", "why_tests_cant": "Peak memory of recipes of any size; a test measures some recipes.", "anchors": ["sd_mecha/merging.py: merge, KeyMergeVisitor, CastInputDicts", "sd_mecha/recipe_nodes.py: ModelDepthRecipeVisitor"]}
{"id": "C120", "title": "How often tensors are loaded", "statement": "Merging a key loads the tensor of that name from each model as often as the model occurs in the recipe, and no other tensor, if the methods of the recipe take values and the models have the key; so a recipe in which no model occurs twice loads each tensor once. (False that an instruction that several others refer to is merged once: there are recipes with a text of n + 2 lines that load one tensor 2^n times for each key.)", "quantifier": "all recipes of any depth, all such methods, keys and contents of files", "why_tests_cant": "The cost of a recipe grows exponentially in the size of its text; a test sees single recipes.", "anchors": ["sd_mecha/merging.py: KeyMergeVisitor", "sd_mecha/serialization.py: serialize"]}
{"id": "C121", "title": "How much is read from a file", "statement": "Tensors asked for in the order in which they lie in a safetensors file, each once or several times in a row, transfer from it at most twice the size of its data, in at most one more transfer than twice that size in buffers, whatever the sizes of tensors and buffer; so does listing all tensors of a file (items, values). So does a merge without threads of keys that the file has in the order of the config, as files written by such merges do (C111), however often the model occurs in the recipe. (False for other orders, which occur when the file has another order than the config or with threads: backwards, every tensor costs a transfer of a whole buffer, also if the file as a whole fits into it.)", "quantifier": "all files, sizes of buffers, sequences of tensors, recipes with methods that take values", "why_tests_cant": "Depends on the sizes of all tensors and their places in the file.", "anchors": ["sd_mecha/streaming.py: InSafetensorsDict", "sd_mecha/merging.py: merge, KeyMergeVisitor"]}
{"id": "C122", "title": "Merging in two steps", "statement": "A recipe g is merged to a file at a path not in use, and the file then takes the place of g in a larger recipe of the same architecture. If the first merge has output_dtype=None and its file is float64, as with merge_dtype float64, the default, the larger recipe gives the same file either way with default options: the same keys, and each has the same dtype, shape and bytes. More generally, with any options, for each key of the first merge, if saving and loading do not change the tensors of g. The methods around g look at the current key only. (False with default options in both steps: the first file is float16, and the larger recipe gives other bytes.)", "quantifier": "all recipes g and all larger recipes, with g in any number of places, all configs whose keys are not aliases of one another, models, numbers of threads and interleavings", "why_tests_cant": "Compares whole files made in different ways, for all recipes.", "anchors": ["sd_mecha/merging.py: merge, CastInputDicts, KeyMergeVisitor", "sd_mecha/streaming.py: InSafetensorsDict, OutSafetensorsDict", "sd_mecha/recipe_nodes.py: ModelRecipeNode"]}
