# Formal model of sd-mecha: design

The source under study is `/repo` (python package `sd_mecha`, 5243 lines). It is read as text only.
The model is a Lean 4 project in `lean/`. `properties.jsonl` lists the properties,
`MANIFEST.json` says which theorem proves which property, `seeded/LOG.jsonl` records the
mutation tests.

## 1. Trusted base

* Lean's kernel and the three standard axioms `propext`, `Classical.choice`, `Quot.sound`
  (some theorems use fewer; the exact set per theorem can be printed with `#print axioms`).
  No own axioms, no `sorry`, no `native_decide`, no `bv_decide`.
* The hand translation python → Lean. Every model definition cites the file and lines it
  translates and says where it is simplified.
* `tools/gen_tables.py`, which writes the key tables of the shipped configs (`lean/Verif/Data/`, all but
  `Cert*.lean`) from the YAML files in `/repo`. The certificates in `Cert*.lean`, written by
  `tools/gen_certs.py`, need not be trusted: the kernel checks them.
* Contracts: facts about things outside `/repo` that theorems take as hypotheses, listed in section 4.

## 2. Conventions

* Files: `Verif/Py/*` python basics (insertion-ordered dict, errors, decimal numerals, JSON text, strings),
  `Verif/Model/*` the translation, `Verif/Spec/*` small independent specifications, `Verif/Proofs/*` helper
  lemmas, `Verif/Props/*` property theorems named `Cxx_…` with an `example` beside each, `Verif/Data/*` tables.
* Exceptions are values (`Except Err α`, or `Option` where only one error exists).
* Where a property is false of the code there is a theorem `Cxx_…_false` that proves the negation on a
  concrete execution (or for all inputs of a kind), and where something positive remains a theorem with suffix
  `_partial`, whose comment names what is missing.
* Tables are noncomputable constants in chunks of 100 entries; strings in them are lists of code points, and
  statements about whole tables are evaluated by the kernel (`kernel_rfl`, `decide +kernel`).

## 3. What is modelled, by source file

| source | model | left out |
| --- | --- | --- |
| `streaming.py` 77-167 (input) | `Header`, `StreamIn`, `Threads` (loads of several threads interleaved by statement), `Traffic` (the transfers that loads make) | mmap/torch views other than byte views; a closed file |
| `streaming.py` 179-332 (output) | `StreamOut` (interleavings of any number of threads), `FailedSave` (closing while they run), `Overwrite` (output and input the same file) | fsync, disk full |
| `streaming.py` 337-366 | `Strided` | big-endian hosts, CUDA tensors |
| `serialization.py` | `Serialize` (tokenizer, writer, reader: exact on characters), `RecipeFile` (recipes in files, line ends) | messages of exceptions; encoding of characters to bytes; paths are in normal form and name files, not directories |
| `recipe_nodes.py` | `Recipe`, `Builtin`, `Wrappers`, `Budget` | `__hash__`, repr |
| `extensions/merge_methods.py` | `Method`, `Declare`, `Recipe`, `Registry` | reading signatures and annotations by `inspect` and `typing` |
| `extensions/merge_spaces.py`, `model_formats.py` | `Registry` | the list of file suffixes |
| `extensions/model_configs.py`, `scripts/yaml_from_safetensors.py` | `Config`, `Registry`, `Infer`, `Yaml` (`from_yaml`, `to_yaml`, files read at first use) | the syntax of YAML: documents are given as parsed, and what is dumped is taken to parse as itself; tags, which let a file call python functions |
| `conversion.py` | `Conversion`, `Declare` | `heapq` (a list from which the least entry is taken) |
| `merging.py` | `Eval`, `Program`, `Cast`, `Float`, `Merge`, `Threads`, `Infer`, `Inputs`, `Extra`, `Budget`, `Defaults`, `Whole` (the call from its arguments to the output), `WholeExtra` (the same with extra keys kept), `ByName` (the same when the configs of files are found out), `Readme` (one call, to the bits), `Mem` (evaluation on tensors in memory that can be overwritten), `Cached` (evaluation with the caches of instructions, by interleaved threads, in several merges), `Held` (evaluation that says which results are held) | logging, tqdm, CUDA streams, what functions allocate while they run |
| `helpers.py` | `Recipe` (literals), `Defaults` | printing recipes |
| `merge_method_wrappers.py` | `Wrappers` | — |
| `builtin/merge_methods/__init__.py` | `Arith`, `Geometry`, `Region`, `Dropout`, `Builtin`, `Cosine`, `Power`, `Crossover`, `Rank`, `TopK`, `Ieee` (casts), `Readme` (`weighted_sum` with rounding), `Linear` (`n_average`, `add_difference` and `subtract` with rounding), `MemMethods` (which tensors are written and returned), `Shape` (shapes of results, all methods) | rounding, except where stated; kernels of torch |
| `builtin/merge_methods/svd.py`, `ema.py` | `Rank`, `Rotate`, `Ema` | the QR, SVD and eigenvalue routines of torch, given by their contracts; the cache of `rotate` |
| `builtin/lycoris.py` | `Lycoris`, `Shipped`, `Lora` (the conversion as a method within a merge) | rounding |
| `builtin/model_configs/convert_*.py`, `*.yaml` | `Convert`, `Blocks` (the conversions from blocks as methods within a merge), `Converted` (the conversions of checkpoints as methods within a merge), `Shipped`, `Registered`, `Data/*` | — |

Numbers. Merge methods are modelled in exact arithmetic over ℚ, ℝ or any (ordered) field; where rounding is the
point (C34, C54, C57, C103, C104) it is modelled: IEEE 754 round to nearest even for all but C57, an arbitrary monotone, odd,
idempotent rounding for C57. NaN and infinities appear where a division by zero makes them.

## 4. Contracts

| name | says | instance in the project |
| --- | --- | --- |
| `Serialize.Num F` | `repr` of a float is a numeral python's parser reads back as the same float | yes (`Spec/NumEx`) |
| `Eval.Conv`, `Eval.World` | how tensors are cast, what a merge method computes from its arguments and key | yes (examples in `Props/Eval`) |
| `Builtin.Builtin`, `Wrappers.Registered` | the builtin methods are registered under their names | yes |
| `Inputs.Fs` | which paths exist and what their headers say | yes |
| `Arith.Rounding` | monotone, odd, idempotent rounding | yes (identity) |
| `Wrappers.Floats` | python float literals used by the wrappers | yes |
| `Readme.Torch` | what torch does outside of the cases modelled: casts to integers and `float8_e4m3fn`, `allclose` and `weighted_sum` on other dtypes than float64 | yes (`Props/Readme`) |
| `Lora.Scene` | an open float16 model and an open LoRA, the builtin methods, `add_difference` and the LoRA's conversion registered; torch's matrix product and `addcmul` yield float64 tensors of the layer's shape | yes (`Props/Lora`) |
| `Converted.Scene` | an open checkpoint, the builtin methods and a conversion registered; `to` keeps strides, as `torch.preserve_format` says | yes (`Props/Converted`) |
| `ByName.Site`, `ByName.Disk` | the registered configs and methods; which paths exist and the bytes of the files | yes (`Props/ByName`) |
| `Readme.Scene` | two open files with float16 tensors, the builtin methods and `weighted_sum` registered | yes (`Props/Readme`) |
| `Linear.Arith.Fma` | `addcmul` on float64 is rounded after each operation, or once (fused multiply-add) | yes (`Props/Linear`) |
| `Linear.Spec.Mean` | `torch.mean` of float64 numbers adds them in some order, rounding each sum, and divides by how many there are, or multiplies by the rounded reciprocal | yes (`Props/Linear`) |
| `Linear.Arith` | what torch does for `addcmul`, `mean` and `-` on other dtypes or shapes than those of a merge in float64 | yes (`Props/Linear`) |
| `Linear.Scene` | open files with floating point tensors, equal shapes for equal keys, the builtin methods registered | yes (`Props/Linear`) |
| `Mem.Spec.Implements` | a method on memory does what its description on values says: writes only tensors it is given or has made, and returns a tensor it was given or a new one | yes (`Props/Mem`; proved for five builtin methods) |
| `Mem.Spec.Describes`, `HasCast` | the world on memory and that on values agree; `cast` is registered | yes (`Props/Mem`) |
| `Power.broadcast`, operations in `Shape` | the shapes of results of torch's operations; that reductions and similarities along a dimension accept scalars | definitions, not hypotheses |
| complete transfers | one `read`/`readinto`/`write` call moves everything asked; C11 shows what happens otherwise | — |
| atomicity | a `with lock` block is one step (in `Threads`: each statement of it); between two accesses to shared state a thread's code is one step | — |

Every structure used as a hypothesis has an instance, so no theorem is vacuous for lack of one.

## 5. Where the code disagrees with a property

Properties with a theorem `…_false`: the property as stated in `properties.jsonl` fails for the code.

* **C03 Modifying a tensor in place does not affect later reads of the input.** The property is false of the code: negation proved with a witness; the positive part covers writes to tensors of other entries. (`C03_inplace_false`)
* **C10 Bytes written equal the tensor's elements in row-major order.** False of the code for views: negations proved; holds for contiguous tensors owning their storage. (`C10_transposed_false`, `C10_view_wrong_size`, `C10_offset_leaks`)
* **C11 Short OS transfers.** False of the code: both negations proved with witnesses; exactness is proved when every transfer is complete. (`C11_short_read_false`, `C11_short_write_false`)
* **C13 Recipe round trip.** Proved for every recipe of an explicit class of any depth and width; false of the code outside: witnesses for booleans, non-finite floats, paths with '=', line breaks, bare literals and literals whose merge space was given without config. Float repr/parse is an assumed contract. (`C13_path_false`, `C13_space_false`, `C13_literal_false`, `C13_break_false`, `C18_bool_false`, `C18_nonfinite_false`)
* **C18 Numeric scalars survive the text format.** Float repr/parse is an assumed contract (structure Num), with a concrete instance. (`C18_bool_false`, `C18_nonfinite_false`)
* **C20 Conversion search is complete and terminates.** Termination and completeness for every converter list. Found: configs unknown to all converters give a KeyError instead of the documented ValueError, which also aborts mapping inputs early. (`C20_unknown_config_false`, `C20_mapping_false`)
* **C22 Argument binding matches Python calls.** False of the code for arguments given twice (negation proved); agreement with python's rules proved for all other calls, and for all calls of methods without defaults and varargs. (`C22_double_false`)
* **C26 Fallback operator.** For all operands except a merge node without any argument, for which the code raises (negation proved). (`C26_no_arguments_false`)
* **C31 A real error is never mistaken for a missing key.** False of the code: the error of the argument evaluated last wins, so a missing key can mask a real error (negation proved). (`C31_masked_false`)
* **C32 Casting inputs is a homomorphism.** Equality at every key for recipes whose failing arguments fail in one way; without that the reported error can change, which turns a missing key into a raised error (negation proved). An empty mapping cannot be cast (negation proved). (`C32_empty_false`, `C32_order_false`)
* **C34 Scalar parameters reach merge methods unchanged.** A number arrives unchanged exactly if it is a float32 number (both directions), otherwise within 2^-24 relative error; 16777217 and 0.1 are changed (proved). Rounding of PyTorch is modelled as IEEE 754 round to nearest even. (`C34_int_false`, `C34_float_false`)
* **C36 Input files are closed.** For recipes whose dicts hold nodes only or values only, every file whose header could be read is closed and forgotten, whatever fails. False otherwise: a dict that mixes both, and a file with an invalid header (negations proved). (`C36_mixed_false`, `C36_mixed_raises_false`, `C36_header_false`)
* **C38 Merging does not depend on earlier merges (ema).** False of the code (negation proved): a merge with omit_ema deletes the ema keys from the config's cache. The exact dependence on the history is proved, and independence when omit_ema is set. (`C38_ema_false`)
* **C39 Structural configs are the intersection of the inputs' keys.** Proved for state dicts in memory as long as the inputs before the last have a common key. Outside that it is false of the code (witnesses), and files of unknown architecture always fail with omit_extra_keys. (`C39_empty_false`, `C39_nested_false`)
* **C40 Reusing a node in a second recipe.** False of the code (two negations proved); independence proved for any history if shared nodes have a registered config. (`C40_false`, `C40_param_false`)
* **C43 Registries.** Found: a rejected converter stays registered as a method, and re-registering a converter as a plain method leaves the old converter in use. (`C43_stale_converter_false`, `C43_rejected_converter_false`)
* **C45 keys(), metadata() and aliases() of a config agree.** For any sequence of calls of the three views; a merge with omit_ema breaks it (negation proved, see C38). (`C45_ema_false`)
* **C46 Extra keys are forwarded.** If the merge starts, the keys considered are exactly the config's and all inputs' keys, and the recipe's values stay. False of the code: the merge raises if a model of the config has another merge space, or if two in-memory dicts share their keys; forwarded values skip the output cast (negations proved). (`C46_space_false`, `C46_dicts_false`, `C46_dtype_false`)
* **C49 Binomial coefficients.** Exact while no intermediate product overflows int64, which holds for all n up to 61; wrong from n = 62 on (proved). (`C49_overflow`)
* **C50 Overlap probabilities sum to one.** The sum is one and the empty set has probability p whenever the weights are defined; false for probability 0 and overlap (NaN), and a probability can be negative (negations proved). (`C50_zero_false`, `C50_negative_false`)
* **C54 add_difference inverts subtract.** In exact arithmetic; false in float32 (witness proved). (`C54_float32_false`)
* **C55 Perpendicular component is orthogonal.** Orthogonality always; for a = 0 the result is zero instead of b (proved). Exact real arithmetic. (`C55_zero_false`)
* **C59 LyCORIS conversion uses the config's own key prefix.** Every converter reads the prefix 'lora': right for the kohya configs, and the negation is proved for the lycoris ones. (`C59_lycoris_false`)
* **C62 Wrapper functions build valid recipes.** False of dropout and ties_with_dare, which never build a recipe (proved for all inputs). For the other wrappers: the exact recipe, its merge space, and when a TypeError is raised. (`C62_dropout_false`, `C62_ties_with_dare_false`)
* **C63 Defaults precedence.** Every option except tqdm, whose instance default is never used (proved); a tuple of directories raises an error (proved). (`C63_tqdm_false`, `C63_tuple_false`)
* **C64 Operators + and -.** Values over any ring of tensors. Operands that are paths or empty mappings are always rejected (C64_path_false). (`C64_path_false`)
* **C65 Buffer budget.** The condition is that no model stands inside a literal dict; such models are opened and not counted (C65_dict_false). Sizes are those configured; a tensor larger than its buffer enlarges it (C09). (`C65_dict_false`)
* **C68 Merging leaves the inputs unchanged.** False of the code: tensor_sum overwrites one of its arguments (negation proved); proved which argument, and that nothing else changes. (`C68_false`)
* **C70 Dropout returns a value.** False of the code for odd floor(overlap), the default included, and for probability 0 (negations proved). (`C70_default_false`, `C70_zero_false`)
* **C71 TIES sign election flag.** False of the code: the flag is inverted (negation proved). (`C71_vote_false`)
* **C72 Flags of ties_sum_extended.** False of the code: the flags are inverted (negation proved for any number of iterations); setting both gives the plain TIES sum. (`C72_median_false`)
* **C75 Selection of the larger delta.** alpha = 1 does not give b for entries at the mean or single entries (proved). (`C75_single_false`)
* **C76 SD1 conversion from the layout of kohya.** All but the four keys of the normalization of the autoencoder's attention, which are lost (negation proved). (`C76_sd1_false`)
* **C77 SDXL conversion from the layout of kohya.** All but the autoencoder and the attention biases of the second text encoder (negations proved). (`C77_vae_false`, `C77_bias_false`)
* **C78 SDXL conversion from the layout of diffusers.** All but the last attention and the upsampler of the first output blocks (negation proved). Keys outside the diffusion model have no source. (`C78_unet_false`)
* **C79 Shipped conversions can be used.** False for Flux (negations proved): the conversions are never registered, and the identifiers in the two files are not those the configs go by. (`C79_flux_false`, `C79_identifier_false`)
* **C81 Model stock.** The order does not matter for two models; negations proved for three models and for one. (`C81_order_false`, `C81_single_false`)
* **C82 Geometric sum.** Between a and b for entries of the same sign; negation proved for opposite signs. Zero entries are left out. (`C82_between_false`)
* **C83 Multiply by a quotient.** Coefficients of the shape of the parameters; negations proved for coefficients with fewer dimensions and for reuse. Entries of opposite signs of b and c are left out of C83_opposite_partial. (`C83_number_false`, `C83_dimensions_false`, `C83_again_false`)
* **C84 Crossover.** All tilts but those within 1e-10 of a step; negations proved there and for single numbers. The Fourier transform is any linear map with a left inverse. (`C84_two_false`, `C84_four_false`, `C84_number_false`)
* **C85 Truncation of the rank.** Over the reals, for any routines that meet the contracts of QR and SVD (such routines exist: routines_exist). Returns unless the matrix has no more columns than rows and keeps them all; negations proved there. (`C85_full_false`, `C85_column_false`)
* **C86 Rearranging by order.** Values exact in 32 bits, and the empty region at offset zero; negations proved otherwise. (`C86_none_false`, `C86_full_false`)
* **C87 Exchange of the averaged weights.** All that is stated for models with averages; without them the weights of the diffusion model are lost (negation proved). (`C87_missing_false`)
* **C89 Shipped configs are recognised.** Models with all required keys and LoRAs with all modules, at least a tenth of whose keys are known; negations proved for parts that two configs know. (`C89_shared_false`, `C89_parts_false`)
* **C90 No name stands for two keys.** All ten model configs; negation proved for LoRA configs. (`C90_lora_false`)
* **C92 Mappings of recipes agree.** All that is stated for mappings passed as arguments; for mappings wrapped by hand, a negation is proved. (`C92_literal_false`)
* **C93 Rotation of neurons.** Whole alignments, called with state dicts, for matrices; negations proved for the call with tensors, for alignments up to one half and for wide matrices.  In addition the code centres the tensors it is given in place, which the model leaves out. (`C93_tensor_false`, `C93_fraction_false`, `C93_rank_false`)
* **C94 Accepted declarations are usable.** What is accepted, in full; which accepted methods have a merge space for every call, in full.  Negations proved for configs of calls without variadic arguments, for symbols no parameter uses and for spaces that cannot be told. (`C94_config_false`, `C94_symbol_false`, `C94_spaces_false`, `C94_symbol_names_false`)
* **C95 Registered conversions take part.** Which lists of conversions work, in full; that accepted ones do, if all parameters declare configs and one is positional; negations proved otherwise. (`C95_accepted_false`)
* **C96 What a failing merge leaves.** Without threads, in full.  With threads, if the workers stand still while the output is closed and none has flushed its buffer without listing it; negations proved for the other cases. (`C96_flush_false`, `C96_late_false`, `C96_late_beyond_false`, `C96_error_false`)
* **C97 The output may be the input.** Another file as output, in full (one model, no threads); the negation for the input file is proved for every model, recipe and set of keys that fit into the output's buffer, and with a witness beyond. (`C97_self_false`)
* **C100 Configs written as YAML read back.** Holds for configs without components only; the negation is proved for all others, for every document that is accepted and for every checkpoint given to the script. (`C100_components_false`, `C100_read_false`, `C100_script_false`, `C100_entry_false`)
* **C101 A config says what its document says.** Reading, in full; negations proved for the checks that are not made.  YAML as parsed, without tags. (`C101_usable_false`, `C101_types_false`)
* **C102 Configs are read at first use.** When the file is read, in full; the identifier in the file plays no part (negation proved). (`C102_identifier_false`)
* **C105 Methods that write into their arguments.** If no input has the merge's dtype and device already, or no method writes into its arguments; the negation is proved for inputs that have them.  Recipes as the library builds them.  Without threads; any methods, of which cast, fallback, weighted_sum, tensor_sum and multiply_quotient are modelled on memory. (`C105_false`)
* **C108 Recipes in files.** For recipes of the class of C13 whose text has no carriage return.  The negations are proved for lines with line ends, for files that end with a line break and for strings with carriage returns. (`C108_readlines_false`, `C108_newline_false`, `C108_return_false`)
* **C110 Merged tensors keep their shape.** All merge methods on tensors but rotate, which raises on tensors (C93).  Negations proved for scalars weighed by similarity along the last dimension and for select_max_white_delta.  How PyTorch's operations treat shapes is a contract. (`C110_scalar_false`, `C110_white_false`, `C110_white_matrix_false`, `C110_white_column_false`)
* **C111 Merging again gives the same file.** For merges without threads or with one.  Merge methods are functions of their arguments.  With two threads the negation is proved. (`C111_threads_false`)
* **C112 The recipe in a merged file makes the file again.** For the recipes of C13, when the options and inputs are the same.  Negations proved for fallback model and dtypes, which the file does not hold, and for recipes with tensors in memory. (`C112_memory_false`, `C112_options_false`)
* **C113 A merge that keeps extra keys.** Under what C99 assumes; state dicts given in memory have each key once.  The negation is proved for the dtype of forwarded keys. (`C113_dtype_false`)
* **C115 Caches of instructions.** Entries of caches are stored and looked up, not deleted or overwritten in place, and an access is atomic.  Negations proved for shared caches, a changed merge dtype, and functions that store rounded entries. (`C115_shared_false`, `C115_dtype_false`, `C115_rounded_false`)
* **C116 Weights per block.** Methods of the recipe look at the current key only, as all built-in ones that are no conversions do, and the keys compared are those at which the recipe with numbers does not raise anything but a missing key (Calm).  The example of the README is for float16 models and weights from 0 to 1.  Silent omission of keys of blocks without weight is proved. (`C116_missing_false`)
* **C118 Converting a checkpoint.** Without fallback model.  Negations proved for the autoencoder of SDXL, a normalization of that of SD1 and two blocks of the diffusion model (missing), the biases of attentions in the second text encoder (shape) and the text projection (not transposed). (`C118_transposed_false`, `C118_vae_false`, `C118_norm_false`, `C118_unet_false`, `C118_bias_false`)
* **C119 What merging a key holds in memory.** For keys whose merge does not raise, without fallback model and StateDict parameters.  What functions allocate while they run, literals and buffers of files are not counted; a result that shares memory with another is counted as one more.  The negation is proved of the order in which arguments are merged. (`C119_order_false`)
* **C120 How often tensors are loaded.** For keys whose merge does not raise and that the files have under their own name (not an alias), methods without StateDict parameters.  The negation is proved of recipes that use an instruction several times. (`C120_shared_false`)
* **C121 How much is read from a file.** For tensors asked for in the order of the file; the negation is proved for other orders, and what the opposite order costs, exactly.  The merge is one whose keys do not raise and that all files have under their own name, with methods without StateDict parameters. (`C121_order_false`)
* **C122 Merging in two steps.** Without fallback model in the first step; arguments passed by value may fail only because a key is missing (in the merge in one step); no key of the config is an alias of another.  The negation is proved for the default options in both steps. (`C122_rounded_false`)

## 6. Method per area

Input streaming (C01–C04, C11). State: heap of immutable-identity byte buffers, current buffer id and its
file offset; ops `load key`, `mutate handle`. `_ensure_buffer`/`_load_tensor` are translated branch by branch
with a per-call transfer cap. Proof: invariant "current buffer = file slice" over op lists; handles point
into heap cells that refills never touch.

Output streaming (C05–C09, C11, C67). Small-step interleaving machine: per-thread buffer, sub-header, program
counter inside `_flush_buffer` (locked part / unlocked part), shared file, flushed size and header.
Invariant with ghost history: file data = concatenation of flushed buffers, header entries point at their
bytes. `close` with header fit / relocation. Then composition with the input model for C05.
C07: worst-case header is computed from sizes sorted descending; any k-prefix sum of any
order is ≤ the k-th prefix sum of the descending order and decimal length is monotone.

`tensor_to_bytes` (C10). Strided tensor over a storage of bytes; row-major enumeration as the spec.

Serialization (C12–C18). Tokenizer on `List Char`, exact. Recipe values as one inductive type; the
instruction list with `index`; the parser as a left fold. Round trip by induction on the value with the
invariant "results list corresponds to instruction list".

Conversion search (C19–C21). `dijkstra` with a priority queue; spec: paths in a multigraph. Invariants of
Dijkstra with unit weights; termination by a measure.

Merge methods (C22–C25). `FunctionArgs`, `create_recipe`, merge-space and config solvers. Spec: python call
binding; satisfiability of symbol assignments.

Evaluation (C26–C35). Interpreter for recipes per key, with errors as values; ErrorHolder as in the code;
denotational spec; schedules as runs of a transition system.

Lifecycle and history (C36–C40). Recipe graphs over a heap of nodes (identity matters), opened files as
a log of events; failures at arbitrary points.

Configs (C41–C46). Registries as state machines; inference and checks as functions over key lists.

Numerics (C47–C58, C68–C75). Exact arithmetic over ℚ/ℝ, tensors as functions or lists, using Mathlib.

Conversions of keys (C59–C61, C76–C79). The conversion of a key is the expression it evaluates to
(`Convert.Conv`). For every table entry the kernel checks a certificate that says which source key is read
and how; specifications of the key naming (`Props/ConvertSpec`) are independent of the conversion code.

Wrappers (C62), defaults (C63), operators (C64), budgets (C65), paths (C66).
