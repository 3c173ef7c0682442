{
 "claims": [
  {
   "property": "C01",
   "status": "proved",
   "theorems": [
    "Verif.StreamIn.C01_read_exact",
    "Verif.C01_format"
   ],
   "note": "Assumes one OS read transfers everything asked (see C11) and a valid header. C01_format ties headers to the literal text of the format."
  },
  {
   "property": "C02",
   "status": "proved",
   "theorems": [
    "Verif.StreamIn.C02_views_stable"
   ],
   "note": ""
  },
  {
   "property": "C03",
   "status": "partial",
   "theorems": [
    "Verif.StreamIn.C03_inplace_false",
    "Verif.StreamIn.C03_inplace_other_entries_partial"
   ],
   "note": "The property is false of the code: negation proved with a witness; the positive part covers writes to tensors of other entries."
  },
  {
   "property": "C04",
   "status": "proved",
   "theorems": [
    "Verif.StreamIn.C04_listing"
   ],
   "note": ""
  },
  {
   "property": "C05",
   "status": "proved",
   "theorems": [
    "Verif.StreamOut.C05_readback",
    "Verif.StreamOut.C05_repeated_names",
    "Verif.StreamOut.C05_close_succeeds"
   ],
   "note": "All interleavings of any number of threads. Assumes complete OS writes (see C11)."
  },
  {
   "property": "C06",
   "status": "proved",
   "theorems": [
    "Verif.StreamOut.C06_layout",
    "Verif.C06_format"
   ],
   "note": "C06_format: the closed file is in the format spelled out by the specification."
  },
  {
   "property": "C07",
   "status": "proved",
   "theorems": [
    "Verif.StreamOut.C07_reserve_suffices"
   ],
   "note": ""
  },
  {
   "property": "C08",
   "status": "proved",
   "theorems": [
    "Verif.StreamOut.C08_relocation",
    "Verif.StreamOut.C08_moved_readback",
    "Verif.StreamOut.C08_zero_buffer"
   ],
   "note": ""
  },
  {
   "property": "C09",
   "status": "proved",
   "theorems": [
    "Verif.StreamOut.C09_buffer_bound"
   ],
   "note": ""
  },
  {
   "property": "C10",
   "status": "partial",
   "theorems": [
    "Verif.Strided.C10_contiguous_partial",
    "Verif.Strided.C10_transposed_false",
    "Verif.Strided.C10_view_wrong_size",
    "Verif.Strided.C10_offset_leaks"
   ],
   "note": "False of the code for views: negations proved; holds for contiguous tensors owning their storage."
  },
  {
   "property": "C100",
   "status": "partial",
   "theorems": [
    "Verif.Yaml.C100_components_false",
    "Verif.Yaml.C100_read_false",
    "Verif.Yaml.C100_script_false",
    "Verif.Yaml.C100_entry_false",
    "Verif.Yaml.C100_empty_partial"
   ],
   "note": "Holds for configs without components only; the negation is proved for all others, for every document that is accepted and for every checkpoint given to the script."
  },
  {
   "property": "C101",
   "status": "partial",
   "theorems": [
    "Verif.Yaml.C101_reads",
    "Verif.Yaml.C101_order",
    "Verif.Yaml.C101_twice",
    "Verif.Yaml.C101_accepts",
    "Verif.Yaml.C101_errors",
    "Verif.Yaml.C101_duplicates",
    "Verif.Yaml.C101_usable_false",
    "Verif.Yaml.C101_types_false"
   ],
   "note": "Reading, in full; negations proved for the checks that are not made.  YAML as parsed, without tags."
  },
  {
   "property": "C102",
   "status": "partial",
   "theorems": [
    "Verif.Yaml.C102_answers",
    "Verif.Yaml.C102_reads",
    "Verif.Yaml.C102_once",
    "Verif.Yaml.C102_stem",
    "Verif.Yaml.C102_identifier_false"
   ],
   "note": "When the file is read, in full; the identifier in the file plays no part (negation proved)."
  },
  {
   "property": "C103",
   "status": "partial",
   "theorems": [
    "Verif.Ieee.C103_round",
    "Verif.Ieee.C103_limits",
    "Verif.Ieee.C103_widen",
    "Verif.Ieee.C103_back",
    "Verif.Ieee.C103_wider",
    "Verif.Ieee.C103_same",
    "Verif.Readme.C103_copy_partial"
   ],
   "note": "Casts in full, with PyTorch's taken to be those of IEEE 754 (float8_e4m3fn and integers as targets are left out); the merge of one model with default options under what C99 assumes."
  },
  {
   "property": "C104",
   "status": "partial",
   "theorems": [
    "Verif.Readme.C104_recipe",
    "Verif.Readme.C104_readme_partial"
   ],
   "note": "Under what C99 assumes; PyTorch's casts and arithmetic are taken to be those of IEEE 754, allclose as documented.  The weight is a float, the models are float16 and hold tensors of equal shapes."
  },
  {
   "property": "C105",
   "status": "partial",
   "theorems": [
    "Verif.Mem.C105_shielded",
    "Verif.Mem.C105_reads",
    "Verif.Mem.C105_cast_partial",
    "Verif.Mem.C105_false",
    "Verif.Mem.C105_method_cast",
    "Verif.Mem.C105_method_fallback",
    "Verif.Mem.C105_method_weighted",
    "Verif.Mem.C105_method_tensor_sum",
    "Verif.Mem.C105_method_multiply"
   ],
   "note": "If no input has the merge's dtype and device already, or no method writes into its arguments; the negation is proved for inputs that have them.  Recipes as the library builds them.  Without threads; any methods, of which cast, fallback, weighted_sum, tensor_sum and multiply_quotient are modelled on memory."
  },
  {
   "property": "C106",
   "status": "partial",
   "theorems": [
    "Verif.Lora.C106_convert",
    "Verif.Lora.C106_recipe",
    "Verif.Lora.C106_file_partial",
    "Verif.Lora.C106_network"
   ],
   "note": "Under what C99 assumes, for layers on which torch's matrix product and addcmul do not raise and yield float64 tensors of the layer's shape; what these compute is modelled in exact arithmetic only."
  },
  {
   "property": "C107",
   "status": "partial",
   "theorems": [
    "Verif.ByName.C107_call",
    "Verif.ByName.C107_default"
   ],
   "note": "For inputs whose tensor names call for one registered config and dicts that hold no recipes; without merge device and dtype, also for inputs whose parameter declares no config.  Two names of one file are taken to be opened separately."
  },
  {
   "property": "C108",
   "status": "partial",
   "theorems": [
    "Verif.RecipeFile.C108_back_partial",
    "Verif.RecipeFile.C108_failed",
    "Verif.RecipeFile.C108_refused",
    "Verif.RecipeFile.C108_lines",
    "Verif.RecipeFile.C108_readlines_false",
    "Verif.RecipeFile.C108_readlines_version",
    "Verif.RecipeFile.C108_newline_false",
    "Verif.RecipeFile.C108_return_false"
   ],
   "note": "For recipes of the class of C13 whose text has no carriage return.  The negations are proved for lines with line ends, for files that end with a line break and for strings with carriage returns."
  },
  {
   "property": "C109",
   "status": "partial",
   "theorems": [
    "Verif.Total.C109_memory",
    "Verif.Total.C109_always",
    "Verif.Total.C109_file",
    "Verif.Total.C109_built",
    "Verif.Total.C109_value"
   ],
   "note": "Under what C99 assumes of casts, and for the library's three merge spaces.  Mappings without entries raise StopIteration if inputs are cast (C32)."
  },
  {
   "property": "C11",
   "status": "partial",
   "theorems": [
    "Verif.StreamIn.C11_short_read_false",
    "Verif.StreamOut.C11_short_write_false",
    "Verif.StreamIn.C01_read_exact",
    "Verif.StreamOut.C05_readback"
   ],
   "note": "False of the code: both negations proved with witnesses; exactness is proved when every transfer is complete."
  },
  {
   "property": "C110",
   "status": "partial",
   "theorems": [
    "Verif.Shape.C110_recipe",
    "Verif.Shape.C110_two",
    "Verif.Shape.C110_one",
    "Verif.Shape.C110_many",
    "Verif.Shape.C110_multiply",
    "Verif.Shape.C110_scalar_false",
    "Verif.Shape.C110_white_false",
    "Verif.Shape.C110_white_matrix_false",
    "Verif.Shape.C110_white_column_false",
    "Verif.Shape.C110_different"
   ],
   "note": "All merge methods on tensors but rotate, which raises on tensors (C93).  Negations proved for scalars weighed by similarity along the last dimension and for select_max_white_delta.  How PyTorch's operations treat shapes is a contract."
  },
  {
   "property": "C111",
   "status": "partial",
   "theorems": [
    "Verif.Reproducible.C111_writer",
    "Verif.Reproducible.C111_same",
    "Verif.Reproducible.C111_size",
    "Verif.Reproducible.C111_order",
    "Verif.Reproducible.C111_merge",
    "Verif.Reproducible.C111_threads_false"
   ],
   "note": "For merges without threads or with one.  Merge methods are functions of their arguments.  With two threads the negation is proved."
  },
  {
   "property": "C112",
   "status": "partial",
   "theorems": [
    "Verif.Remake.C112_again_partial",
    "Verif.Remake.C112_threads",
    "Verif.Remake.C112_memory_false",
    "Verif.Remake.C112_options_false"
   ],
   "note": "For the recipes of C13, when the options and inputs are the same.  Negations proved for fallback model and dtypes, which the file does not hold, and for recipes with tensors in memory."
  },
  {
   "property": "C113",
   "status": "partial",
   "theorems": [
    "Verif.WholeExtra.C113_file_partial",
    "Verif.WholeExtra.C113_memory_partial",
    "Verif.WholeExtra.Ex.C113_dtype_false"
   ],
   "note": "Under what C99 assumes; state dicts given in memory have each key once.  The negation is proved for the dtype of forwarded keys."
  },
  {
   "property": "C114",
   "status": "partial",
   "theorems": [
    "Verif.Linear.C114_linear_partial",
    "Verif.Linear.C114_calls",
    "Verif.Linear.C114_average"
   ],
   "note": "For models on the cpu with equal shapes in binary floating point dtypes, default options, and intermediate values below 2^1000.  What torch computes per entry is assumed: each operation rounded to nearest, addcmul rounded once or twice, sums of n_average added in any order."
  },
  {
   "property": "C115",
   "status": "partial",
   "theorems": [
    "Verif.Cached.C115_indifferent",
    "Verif.Cached.C115_ends",
    "Verif.Cached.C115_kept",
    "Verif.Cached.C115_memo",
    "Verif.Cached.C115_shared_false",
    "Verif.Cached.C115_dtype_false",
    "Verif.Cached.C115_rounded_false"
   ],
   "note": "Entries of caches are stored and looked up, not deleted or overwritten in place, and an access is atomic.  Negations proved for shared caches, a changed merge dtype, and functions that store rounded entries."
  },
  {
   "property": "C116",
   "status": "partial",
   "theorems": [
    "Verif.Blocks.C116_file",
    "Verif.Blocks.C116_sd1",
    "Verif.Blocks.C116_sdxl",
    "Verif.Blocks.C116_missing_false",
    "Verif.Blocks.C116_readme_partial"
   ],
   "note": "Methods of the recipe look at the current key only, as all built-in ones that are no conversions do, and the keys compared are those at which the recipe with numbers does not raise anything but a missing key (Calm).  The example of the README is for float16 models and weights from 0 to 1.  Silent omission of keys of blocks without weight is proved."
  },
  {
   "property": "C117",
   "status": "proved",
   "theorems": [
    "Verif.Assembly.C117_file",
    "Verif.Assembly.C117_unknown"
   ],
   "note": "For recipes whose configs are known and merges without fallback model; conversions of values to tensors and moves to the output device do not raise a missing key."
  },
  {
   "property": "C118",
   "status": "partial",
   "theorems": [
    "Verif.Converted.C118_file_partial",
    "Verif.Converted.C118_exact",
    "Verif.Converted.C118_sd1_partial",
    "Verif.Converted.C118_sdxl_partial",
    "Verif.Converted.C118_unet_partial",
    "Verif.Converted.C118_transposed",
    "Verif.Converted.C118_transposed_false",
    "Verif.Converted.C118_vae_false",
    "Verif.Converted.C118_norm_false",
    "Verif.Converted.C118_unet_false",
    "Verif.Converted.C118_bias_false"
   ],
   "note": "Without fallback model.  Negations proved for the autoencoder of SDXL, a normalization of that of SD1 and two blocks of the diffusion model (missing), the biases of attentions in the second text encoder (shape) and the text projection (not transposed)."
  },
  {
   "property": "C119",
   "status": "partial",
   "theorems": [
    "Verif.Held.C119_same",
    "Verif.Held.C119_end",
    "Verif.Held.C119_height",
    "Verif.Held.C119_root",
    "Verif.Held.C119_chain",
    "Verif.Held.C119_merge",
    "Verif.Held.C119_threads",
    "Verif.Held.Ex.C119_order_false"
   ],
   "note": "For keys whose merge does not raise, without fallback model and StateDict parameters.  What functions allocate while they run, literals and buffers of files are not counted; a result that shares memory with another is counted as one more.  The negation is proved of the order in which arguments are merged."
  },
  {
   "property": "C12",
   "status": "proved",
   "theorems": [
    "Verif.Serialize.C12_quoting"
   ],
   "note": "Any characters, any context."
  },
  {
   "property": "C120",
   "status": "partial",
   "theorems": [
    "Verif.Held.C120_loads",
    "Verif.Held.C120_once",
    "Verif.Held.Ex.C120_shared_false"
   ],
   "note": "For keys whose merge does not raise and that the files have under their own name (not an alias), methods without StateDict parameters.  The negation is proved of recipes that use an instruction several times."
  },
  {
   "property": "C121",
   "status": "partial",
   "theorems": [
    "Verif.StreamIn.C121_same",
    "Verif.StreamIn.C121_ascending",
    "Verif.StreamIn.C121_items",
    "Verif.StreamIn.C121_reverse",
    "Verif.StreamIn.C121_merge",
    "Verif.StreamIn.TrafficEx.C121_order_false"
   ],
   "note": "For tensors asked for in the order of the file; the negation is proved for other orders, and what the opposite order costs, exactly.  The merge is one whose keys do not raise and that all files have under their own name, with methods without StateDict parameters."
  },
  {
   "property": "C122",
   "status": "partial",
   "theorems": [
    "Verif.Steps.C122_steps_partial",
    "Verif.Steps.C122_float64_partial",
    "Verif.Steps.C122_rounded_false"
   ],
   "note": "Without fallback model in the first step; arguments passed by value may fail only because a key is missing (in the merge in one step); no key of the config is an alias of another.  The negation is proved for the default options in both steps."
  },
  {
   "property": "C13",
   "status": "partial",
   "theorems": [
    "Verif.Serialize.C13_roundtrip_partial",
    "Verif.Serialize.C13_calls",
    "Verif.Serialize.C13_path_false",
    "Verif.Serialize.C13_space_false",
    "Verif.Serialize.C13_literal_false",
    "Verif.Serialize.C13_break_false",
    "Verif.Serialize.C18_bool_false",
    "Verif.Serialize.C18_nonfinite_false"
   ],
   "note": "Proved for every recipe of an explicit class of any depth and width; false of the code outside: witnesses for booleans, non-finite floats, paths with '=', line breaks, bare literals and literals whose merge space was given without config. Float repr/parse is an assumed contract."
  },
  {
   "property": "C14",
   "status": "proved",
   "theorems": [
    "Verif.Serialize.C14_shared",
    "Verif.Serialize.C14_backward"
   ],
   "note": "No duplicates for every recipe; references for the round-trip class."
  },
  {
   "property": "C15",
   "status": "proved",
   "theorems": [
    "Verif.Serialize.C15_rejects"
   ],
   "note": ""
  },
  {
   "property": "C16",
   "status": "proved",
   "theorems": [
    "Verif.Serialize.C16_noise"
   ],
   "note": ""
  },
  {
   "property": "C17",
   "status": "proved",
   "theorems": [
    "Verif.Serialize.C17_stable"
   ],
   "note": "For the round-trip class of C13."
  },
  {
   "property": "C18",
   "status": "proved",
   "theorems": [
    "Verif.Serialize.C18_numbers",
    "Verif.Serialize.C18_bool_false",
    "Verif.Serialize.C18_nonfinite_false"
   ],
   "note": "Float repr/parse is an assumed contract (structure Num), with a concrete instance."
  },
  {
   "property": "C19",
   "status": "proved",
   "theorems": [
    "Verif.Conversion.C19_shortest"
   ],
   "note": "Any converter list, with cycles and parallel converters."
  },
  {
   "property": "C20",
   "status": "proved",
   "theorems": [
    "Verif.Conversion.C20_complete",
    "Verif.Conversion.C20_unknown_config_false",
    "Verif.Conversion.C20_mapping_false"
   ],
   "note": "Termination and completeness for every converter list. Found: configs unknown to all converters give a KeyError instead of the documented ValueError, which also aborts mapping inputs early."
  },
  {
   "property": "C21",
   "status": "proved",
   "theorems": [
    "Verif.Conversion.C21_convert",
    "Verif.Conversion.C21_same"
   ],
   "note": ""
  },
  {
   "property": "C22",
   "status": "partial",
   "theorems": [
    "Verif.Method.C22_binding_partial",
    "Verif.Method.C22_no_defaults",
    "Verif.Method.C22_rebind",
    "Verif.Method.C22_double_false"
   ],
   "note": "False of the code for arguments given twice (negation proved); agreement with python's rules proved for all other calls, and for all calls of methods without defaults and varargs."
  },
  {
   "property": "C23",
   "status": "proved",
   "theorems": [
    "Verif.Method.C23_merge_space"
   ],
   "note": "Both directions: soundness and completeness."
  },
  {
   "property": "C24",
   "status": "proved",
   "theorems": [
    "Verif.Method.C24_config",
    "Verif.Method.C24_agree"
   ],
   "note": "Both directions."
  },
  {
   "property": "C25",
   "status": "proved",
   "theorems": [
    "Verif.Method.C25_tables"
   ],
   "note": ""
  },
  {
   "property": "C26",
   "status": "partial",
   "theorems": [
    "Verif.Eval.C26_fallback_partial",
    "Verif.Eval.C26_assoc_partial",
    "Verif.Eval.C26_no_arguments_false"
   ],
   "note": "For all operands except a merge node without any argument, for which the code raises (negation proved)."
  },
  {
   "property": "C27",
   "status": "proved",
   "theorems": [
    "Verif.Eval.C27_partition",
    "Verif.Eval.C27_unknown"
   ],
   "note": ""
  },
  {
   "property": "C28",
   "status": "proved",
   "theorems": [
    "Verif.Eval.C28_local"
   ],
   "note": "Methods are assumed local themselves: they look up mappings only at the key asked for; shown for fallback and others."
  },
  {
   "property": "C29",
   "status": "proved",
   "theorems": [
    "Verif.Merge.C29_schedule",
    "Verif.Merge.C29_terminates"
   ],
   "note": "All schedules of the thread pool, with cancellation; any thread counts compared, also 0."
  },
  {
   "property": "C30",
   "status": "proved",
   "theorems": [
    "Verif.Merge.C30_returned",
    "Verif.Merge.C30_raised",
    "Verif.Merge.C30_raises",
    "Verif.Merge.C30_recipe"
   ],
   "note": ""
  },
  {
   "property": "C31",
   "status": "partial",
   "theorems": [
    "Verif.Eval.C31_masked_false",
    "Verif.Eval.C31_error_kept_partial"
   ],
   "note": "False of the code: the error of the argument evaluated last wins, so a missing key can mask a real error (negation proved)."
  },
  {
   "property": "C32",
   "status": "partial",
   "theorems": [
    "Verif.Eval.C32_cast",
    "Verif.Eval.C32_config",
    "Verif.Eval.C32_empty_false",
    "Verif.Eval.C32_order_false"
   ],
   "note": "Equality at every key for recipes whose failing arguments fail in one way; without that the reported error can change, which turns a missing key into a raised error (negation proved). An empty mapping cannot be cast (negation proved)."
  },
  {
   "property": "C33",
   "status": "proved",
   "theorems": [
    "Verif.Eval.C33_model",
    "Verif.Eval.C33_dict"
   ],
   "note": ""
  },
  {
   "property": "C34",
   "status": "partial",
   "theorems": [
    "Verif.Float.C34_float_partial",
    "Verif.Float.C34_error_partial",
    "Verif.Float.C34_int_partial",
    "Verif.Float.C34_small_partial",
    "Verif.Float.C34_uncast",
    "Verif.Float.C34_int_false",
    "Verif.Float.C34_float_false"
   ],
   "note": "A number arrives unchanged exactly if it is a float32 number (both directions), otherwise within 2^-24 relative error; 16777217 and 0.1 are changed (proved). Rounding of PyTorch is modelled as IEEE 754 round to nearest even."
  },
  {
   "property": "C35",
   "status": "proved",
   "theorems": [
    "Verif.Eval.C35_order"
   ],
   "note": ""
  },
  {
   "property": "C36",
   "status": "partial",
   "theorems": [
    "Verif.Inputs.C36_closed",
    "Verif.Inputs.C36_mixed_false",
    "Verif.Inputs.C36_mixed_raises_false",
    "Verif.Inputs.C36_header_false"
   ],
   "note": "For recipes whose dicts hold nodes only or values only, every file whose header could be read is closed and forgotten, whatever fails. False otherwise: a dict that mixes both, and a file with an invalid header (negations proved)."
  },
  {
   "property": "C37",
   "status": "proved",
   "theorems": [
    "Verif.Inputs.C37_once",
    "Verif.Inputs.C37_shared"
   ],
   "note": ""
  },
  {
   "property": "C38",
   "status": "partial",
   "theorems": [
    "Verif.Registry.C38_history",
    "Verif.Registry.C38_omit_partial",
    "Verif.Registry.C38_ema_false"
   ],
   "note": "False of the code (negation proved): a merge with omit_ema deletes the ema keys from the config's cache. The exact dependence on the history is proved, and independence when omit_ema is set."
  },
  {
   "property": "C39",
   "status": "partial",
   "theorems": [
    "Verif.Inputs.C39_intersection_partial",
    "Verif.Inputs.C39_empty_false",
    "Verif.Inputs.C39_nested_false",
    "Verif.Inputs.C39_files_fail"
   ],
   "note": "Proved for state dicts in memory as long as the inputs before the last have a common key. Outside that it is false of the code (witnesses), and files of unknown architecture always fail with omit_extra_keys."
  },
  {
   "property": "C40",
   "status": "partial",
   "theorems": [
    "Verif.Inputs.C40_history_partial",
    "Verif.Inputs.C40_false",
    "Verif.Inputs.C40_param_false"
   ],
   "note": "False of the code (two negations proved); independence proved for any history if shared nodes have a registered config."
  },
  {
   "property": "C41",
   "status": "proved",
   "theorems": [
    "Verif.Infer.C41_groups",
    "Verif.Infer.C41_best",
    "Verif.Infer.C41_hashable"
   ],
   "note": ""
  },
  {
   "property": "C42",
   "status": "proved",
   "theorems": [
    "Verif.Infer.C42_check"
   ],
   "note": ""
  },
  {
   "property": "C43",
   "status": "proved",
   "theorems": [
    "Verif.Registry.C43_configs",
    "Verif.Registry.C43_all",
    "Verif.Registry.C43_spaces_formats",
    "Verif.Registry.C43_methods",
    "Verif.Registry.C43_stale_converter_false",
    "Verif.Registry.C43_rejected_converter_false"
   ],
   "note": "Found: a rejected converter stays registered as a method, and re-registering a converter as a plain method leaves the old converter in use."
  },
  {
   "property": "C44",
   "status": "proved",
   "theorems": [
    "Verif.Registry.C44_identifier",
    "Verif.Registry.C44_unique"
   ],
   "note": ""
  },
  {
   "property": "C45",
   "status": "partial",
   "theorems": [
    "Verif.Registry.C45_views_partial",
    "Verif.Registry.C45_ema_false"
   ],
   "note": "For any sequence of calls of the three views; a merge with omit_ema breaks it (negation proved, see C38)."
  },
  {
   "property": "C46",
   "status": "partial",
   "theorems": [
    "Verif.Extra.C46_keys_partial",
    "Verif.Extra.C46_values_partial",
    "Verif.Extra.C46_space_false",
    "Verif.Extra.C46_dicts_false",
    "Verif.Extra.C46_dtype_false"
   ],
   "note": "If the merge starts, the keys considered are exactly the config's and all inputs' keys, and the recipe's values stay. False of the code: the merge raises if a model of the config has another merge space, or if two in-memory dicts share their keys; forwarded values skip the output cast (negations proved)."
  },
  {
   "property": "C47",
   "status": "proved",
   "theorems": [
    "Verif.Region.C47_region"
   ],
   "note": "Exact rational width and offset; the float arithmetic of the fractions is not modelled."
  },
  {
   "property": "C48",
   "status": "proved",
   "theorems": [
    "Verif.Region.C48_rows",
    "Verif.Region.C48_scalar"
   ],
   "note": ""
  },
  {
   "property": "C49",
   "status": "partial",
   "theorems": [
    "Verif.Dropout.C49_binomial",
    "Verif.Dropout.C49_up_to_61",
    "Verif.Dropout.C49_overflow"
   ],
   "note": "Exact while no intermediate product overflows int64, which holds for all n up to 61; wrong from n = 62 on (proved)."
  },
  {
   "property": "C50",
   "status": "partial",
   "theorems": [
    "Verif.Dropout.C50_sums_to_one",
    "Verif.Dropout.C50_nonneg_partial",
    "Verif.Dropout.C50_zero_false",
    "Verif.Dropout.C50_negative_false"
   ],
   "note": "The sum is one and the empty set has probability p whenever the weights are defined; false for probability 0 and overlap (NaN), and a probability can be negative (negations proved)."
  },
  {
   "property": "C51",
   "status": "proved",
   "theorems": [
    "Verif.Arith.C51_plain",
    "Verif.Arith.C51_stiff"
   ],
   "note": ""
  },
  {
   "property": "C52",
   "status": "proved",
   "theorems": [
    "Verif.Arith.C52_ties",
    "Verif.Arith.C52_order",
    "Verif.Arith.C52_single",
    "Verif.Arith.C52_sign"
   ],
   "note": "Exact arithmetic; which election is used is C71."
  },
  {
   "property": "C53",
   "status": "proved",
   "theorems": [
    "Verif.Arith.C53_zero",
    "Verif.Arith.C53_one",
    "Verif.Arith.C53_near",
    "Verif.Arith.C53_average_perm",
    "Verif.Arith.C53_average_between"
   ],
   "note": "Exact arithmetic."
  },
  {
   "property": "C54",
   "status": "partial",
   "theorems": [
    "Verif.Arith.C54_inverse",
    "Verif.Arith.C54_float32_false"
   ],
   "note": "In exact arithmetic; false in float32 (witness proved)."
  },
  {
   "property": "C55",
   "status": "partial",
   "theorems": [
    "Verif.Geometry.C55_orthogonal",
    "Verif.Geometry.C55_multiple_partial",
    "Verif.Geometry.C55_zero_false"
   ],
   "note": "Orthogonality always; for a = 0 the result is zero instead of b (proved). Exact real arithmetic."
  },
  {
   "property": "C56",
   "status": "proved",
   "theorems": [
    "Verif.Geometry.C56_hull"
   ],
   "note": "Exact real arithmetic."
  },
  {
   "property": "C57",
   "status": "proved",
   "theorems": [
    "Verif.Arith.C57_train",
    "Verif.Arith.C57_opposite",
    "Verif.Arith.C57_strict"
   ],
   "note": "Under every monotone, odd and idempotent rounding of the quotient, exact arithmetic included."
  },
  {
   "property": "C58",
   "status": "proved",
   "theorems": [
    "Verif.Lycoris.C58_compose",
    "Verif.Lycoris.C58_network"
   ],
   "note": "Over any field; linear layers and convolutions of any kernel size with a 1x1 up weight."
  },
  {
   "property": "C59",
   "status": "partial",
   "theorems": [
    "Verif.Lycoris.C59_reads",
    "Verif.Lycoris.C59_kohya_partial",
    "Verif.Lycoris.C59_lycoris_false"
   ],
   "note": "Every converter reads the prefix 'lora': right for the kohya configs, and the negation is proved for the lycoris ones."
  },
  {
   "property": "C60",
   "status": "proved",
   "theorems": [
    "Verif.Convert.C60_sd1",
    "Verif.Convert.C60_sd1_used",
    "Verif.Convert.C60_sdxl",
    "Verif.Convert.C60_sdxl_used",
    "Verif.Convert.C60_number"
   ],
   "note": "Over the whole tables of both configs, and for any block number (C60_number)."
  },
  {
   "property": "C61",
   "status": "proved",
   "theorems": [
    "Verif.Convert.C61_full",
    "Verif.Convert.C61_backbone",
    "Verif.Convert.C61_tables"
   ],
   "note": "The functions are as stated; they are never registered (C79)."
  },
  {
   "property": "C62",
   "status": "partial",
   "theorems": [
    "Verif.Wrappers.C62_add_difference",
    "Verif.Wrappers.C62_add_difference3",
    "Verif.Wrappers.C62_add_perpendicular",
    "Verif.Wrappers.C62_copy_region",
    "Verif.Wrappers.C62_copy_region3",
    "Verif.Wrappers.C62_rotate",
    "Verif.Wrappers.C62_rotate3",
    "Verif.Wrappers.C62_ties",
    "Verif.Wrappers.C62_ties_extended",
    "Verif.Wrappers.C62_model_stock",
    "Verif.Wrappers.C62_dropout_false",
    "Verif.Wrappers.C62_ties_with_dare_false"
   ],
   "note": "False of dropout and ties_with_dare, which never build a recipe (proved for all inputs). For the other wrappers: the exact recipe, its merge space, and when a TypeError is raised."
  },
  {
   "property": "C63",
   "status": "partial",
   "theorems": [
    "Verif.Defaults.C63_options",
    "Verif.Defaults.C63_dirs",
    "Verif.Defaults.C63_tqdm_false",
    "Verif.Defaults.C63_tuple_false"
   ],
   "note": "Every option except tqdm, whose instance default is never used (proved); a tuple of directories raises an error (proved)."
  },
  {
   "property": "C64",
   "status": "proved",
   "theorems": [
    "Verif.Wrappers.C64_add",
    "Verif.Wrappers.C64_commutative",
    "Verif.Wrappers.C64_sub",
    "Verif.Wrappers.C64_add_value",
    "Verif.Wrappers.C64_task_vector",
    "Verif.Wrappers.C64_path_false"
   ],
   "note": "Values over any ring of tensors. Operands that are paths or empty mappings are always rejected (C64_path_false)."
  },
  {
   "property": "C65",
   "status": "proved",
   "theorems": [
    "Verif.Budget.C65_budget",
    "Verif.Budget.C65_count",
    "Verif.Budget.C65_threads",
    "Verif.Budget.C65_dict_false"
   ],
   "note": "The condition is that no model stands inside a literal dict; such models are opened and not counted (C65_dict_false). Sizes are those configured; a tensor larger than its buffer enlarges it (C09)."
  },
  {
   "property": "C66",
   "status": "proved",
   "theorems": [
    "Verif.Inputs.C66_search",
    "Verif.Inputs.C66_unique",
    "Verif.Inputs.C66_output"
   ],
   "note": ""
  },
  {
   "property": "C67",
   "status": "proved",
   "theorems": [
    "Verif.Merge.C67_file"
   ],
   "note": "Composition of C30 and C05; assumes complete OS writes."
  },
  {
   "property": "C68",
   "status": "partial",
   "theorems": [
    "Verif.Region.C68_frame_partial",
    "Verif.Region.C68_false"
   ],
   "note": "False of the code: tensor_sum overwrites one of its arguments (negation proved); proved which argument, and that nothing else changes."
  },
  {
   "property": "C69",
   "status": "proved",
   "theorems": [
    "Verif.Dropout.C69_unbiased"
   ],
   "note": "Over the pmf of C50, exact arithmetic."
  },
  {
   "property": "C70",
   "status": "partial",
   "theorems": [
    "Verif.Dropout.C70_returns_partial",
    "Verif.Dropout.C70_default_false",
    "Verif.Dropout.C70_zero_false"
   ],
   "note": "False of the code for odd floor(overlap), the default included, and for probability 0 (negations proved)."
  },
  {
   "property": "C71",
   "status": "partial",
   "theorems": [
    "Verif.Arith.C71_vote_false",
    "Verif.Arith.C71_swapped_partial"
   ],
   "note": "False of the code: the flag is inverted (negation proved)."
  },
  {
   "property": "C72",
   "status": "partial",
   "theorems": [
    "Verif.Geometry.C72_median_false",
    "Verif.Geometry.C72_swapped_partial"
   ],
   "note": "False of the code: the flags are inverted (negation proved for any number of iterations); setting both gives the plain TIES sum."
  },
  {
   "property": "C73",
   "status": "proved",
   "theorems": [
    "Verif.Geometry.C73_descent"
   ],
   "note": "Exact real arithmetic."
  },
  {
   "property": "C74",
   "status": "proved",
   "theorems": [
    "Verif.Geometry.C74_ends",
    "Verif.Geometry.C74_arc"
   ],
   "note": "Exact real arithmetic; division by zero modelled as NaN or infinity."
  },
  {
   "property": "C75",
   "status": "partial",
   "theorems": [
    "Verif.Geometry.C75_select",
    "Verif.Geometry.C75_one_partial",
    "Verif.Geometry.C75_single_false"
   ],
   "note": "alpha = 1 does not give b for entries at the mean or single entries (proved)."
  },
  {
   "property": "C76",
   "status": "partial",
   "theorems": [
    "Verif.Convert.C76_sd1_partial",
    "Verif.Convert.C76_sd1_used_partial",
    "Verif.Convert.C76_sd1_once",
    "Verif.Convert.C76_sd1_false"
   ],
   "note": "All but the four keys of the normalization of the autoencoder's attention, which are lost (negation proved)."
  },
  {
   "property": "C77",
   "status": "partial",
   "theorems": [
    "Verif.Convert.C77_sdxl_partial",
    "Verif.Convert.C77_sdxl_used_partial",
    "Verif.Convert.C77_sdxl_once",
    "Verif.Convert.C77_vae_false",
    "Verif.Convert.C77_bias_false"
   ],
   "note": "All but the autoencoder and the attention biases of the second text encoder (negations proved)."
  },
  {
   "property": "C78",
   "status": "partial",
   "theorems": [
    "Verif.Convert.C78_unet_partial",
    "Verif.Convert.C78_unet_used_partial",
    "Verif.Convert.C78_unet_false"
   ],
   "note": "All but the last attention and the upsampler of the first output blocks (negation proved). Keys outside the diffusion model have no source."
  },
  {
   "property": "C79",
   "status": "partial",
   "theorems": [
    "Verif.Shipped.C79_named",
    "Verif.Shipped.C79_reach",
    "Verif.Shipped.C79_architecture",
    "Verif.Shipped.C79_flux_false",
    "Verif.Shipped.C79_identifier_partial",
    "Verif.Shipped.C79_identifier_false"
   ],
   "note": "False for Flux (negations proved): the conversions are never registered, and the identifiers in the two files are not those the configs go by."
  },
  {
   "property": "C80",
   "status": "proved",
   "theorems": [
    "Verif.Geometry.Cosine.C80_between_a",
    "Verif.Geometry.Cosine.C80_between_b",
    "Verif.Geometry.Cosine.C80_weight_a",
    "Verif.Geometry.Cosine.C80_weight_b",
    "Verif.Geometry.Cosine.C80_default"
   ],
   "note": "Over the reals; the weight under the assumption that no column is shorter than the 1e-12 at which torch clamps."
  },
  {
   "property": "C81",
   "status": "partial",
   "theorems": [
    "Verif.Geometry.Cosine.C81_shrink",
    "Verif.Geometry.Cosine.C81_factor",
    "Verif.Geometry.Cosine.C81_same",
    "Verif.Geometry.Cosine.C81_order_partial",
    "Verif.Geometry.Cosine.C81_order_false",
    "Verif.Geometry.Cosine.C81_single_false"
   ],
   "note": "The order does not matter for two models; negations proved for three models and for one."
  },
  {
   "property": "C82",
   "status": "partial",
   "theorems": [
    "Verif.Power.C82_value",
    "Verif.Power.C82_ends",
    "Verif.Power.C82_bounded",
    "Verif.Power.C82_between_partial",
    "Verif.Power.C82_between_false"
   ],
   "note": "Between a and b for entries of the same sign; negation proved for opposite signs. Zero entries are left out."
  },
  {
   "property": "C83",
   "status": "partial",
   "theorems": [
    "Verif.Power.C83_same_side",
    "Verif.Power.C83_opposite_partial",
    "Verif.Power.C83_returns",
    "Verif.Power.C83_number_false",
    "Verif.Power.C83_dimensions_false",
    "Verif.Power.C83_again_false"
   ],
   "note": "Coefficients of the shape of the parameters; negations proved for coefficients with fewer dimensions and for reuse. Entries of opposite signs of b and c are left out of C83_opposite_partial."
  },
  {
   "property": "C84",
   "status": "partial",
   "theorems": [
    "Verif.Crossover.C84_range",
    "Verif.Crossover.C84_pivot_partial",
    "Verif.Crossover.C84_high_partial",
    "Verif.Crossover.C84_low_partial",
    "Verif.Crossover.C84_alpha",
    "Verif.Crossover.C84_frequency",
    "Verif.Crossover.C84_symmetric",
    "Verif.Crossover.C84_mesh",
    "Verif.Crossover.C84_ends",
    "Verif.Crossover.C84_swap",
    "Verif.Crossover.C84_same",
    "Verif.Crossover.C84_filter",
    "Verif.Crossover.C84_two_false",
    "Verif.Crossover.C84_four_false",
    "Verif.Crossover.C84_number_false"
   ],
   "note": "All tilts but those within 1e-10 of a step; negations proved there and for single numbers. The Fourier transform is any linear map with a left inverse."
  },
  {
   "property": "C85",
   "status": "partial",
   "theorems": [
    "Verif.Rank.C85_rank",
    "Verif.Rank.C85_energy",
    "Verif.Rank.C85_exact",
    "Verif.Rank.C85_returns_partial",
    "Verif.Rank.C85_full_false",
    "Verif.Rank.C85_column_false"
   ],
   "note": "Over the reals, for any routines that meet the contracts of QR and SVD (such routines exist: routines_exist). Returns unless the matrix has no more columns than rows and keeps them all; negations proved there."
  },
  {
   "property": "C86",
   "status": "partial",
   "theorems": [
    "Verif.TopK.C86_full_partial",
    "Verif.TopK.C86_none_partial",
    "Verif.TopK.C86_entries",
    "Verif.TopK.C86_none_false",
    "Verif.TopK.C86_full_false"
   ],
   "note": "Values exact in 32 bits, and the empty region at offset zero; negations proved otherwise."
  },
  {
   "property": "C87",
   "status": "partial",
   "theorems": [
    "Verif.Ema.C87_swap",
    "Verif.Ema.C87_averages",
    "Verif.Ema.C87_rest",
    "Verif.Ema.C87_twice",
    "Verif.Ema.C87_other",
    "Verif.Ema.C87_missing_false"
   ],
   "note": "All that is stated for models with averages; without them the weights of the diffusion model are lost (negation proved)."
  },
  {
   "property": "C88",
   "status": "proved",
   "theorems": [
    "Verif.Inputs.C88_model",
    "Verif.Inputs.C88_dict"
   ],
   "note": "Registries of distinct hashable configs with fewer than 2^40 keys."
  },
  {
   "property": "C89",
   "status": "partial",
   "theorems": [
    "Verif.Shipped.C89_general",
    "Verif.Shipped.C89_model",
    "Verif.Shipped.C89_lora",
    "Verif.Shipped.C89_own",
    "Verif.Shipped.C89_shared_false",
    "Verif.Shipped.C89_parts_false"
   ],
   "note": "Models with all required keys and LoRAs with all modules, at least a tenth of whose keys are known; negations proved for parts that two configs know."
  },
  {
   "property": "C90",
   "status": "partial",
   "theorems": [
    "Verif.Shipped.C90_names",
    "Verif.Shipped.C90_lora_false"
   ],
   "note": "All ten model configs; negation proved for LoRA configs."
  },
  {
   "property": "C91",
   "status": "proved",
   "theorems": [
    "Verif.Shipped.C91_modules",
    "Verif.Shipped.C91_keys"
   ],
   "note": ""
  },
  {
   "property": "C92",
   "status": "partial",
   "theorems": [
    "Verif.Recipe.C92_values",
    "Verif.Recipe.C92_kinds",
    "Verif.Recipe.C92_recipes",
    "Verif.Recipe.C92_differ",
    "Verif.Recipe.C92_literal",
    "Verif.Recipe.C92_literal_false"
   ],
   "note": "All that is stated for mappings passed as arguments; for mappings wrapped by hand, a negation is proved."
  },
  {
   "property": "C93",
   "status": "partial",
   "theorems": [
    "Verif.Rotate.C93_orthogonal",
    "Verif.Rotate.C93_rotation",
    "Verif.Rotate.C93_whole",
    "Verif.Rotate.C93_align",
    "Verif.Rotate.C93_blend",
    "Verif.Rotate.C93_ends",
    "Verif.Rotate.C93_close",
    "Verif.Rotate.C93_tensor_false",
    "Verif.Rotate.C93_fraction_false",
    "Verif.Rotate.C93_rank_false"
   ],
   "note": "Whole alignments, called with state dicts, for matrices; negations proved for the call with tensors, for alignments up to one half and for wide matrices.  In addition the code centres the tensors it is given in place, which the model leaves out."
  },
  {
   "property": "C94",
   "status": "partial",
   "theorems": [
    "Verif.Declare.C94_accepts",
    "Verif.Declare.C94_errors",
    "Verif.Declare.C94_defaults",
    "Verif.Declare.C94_tells",
    "Verif.Declare.C94_config_partial",
    "Verif.Declare.C94_config_false",
    "Verif.Declare.C94_symbol_false",
    "Verif.Declare.C94_spaces_false",
    "Verif.Declare.C94_parameter",
    "Verif.Declare.C94_symbol_names_false"
   ],
   "note": "What is accepted, in full; which accepted methods have a merge space for every call, in full.  Negations proved for configs of calls without variadic arguments, for symbols no parameter uses and for spaces that cannot be told."
  },
  {
   "property": "C95",
   "status": "partial",
   "theorems": [
    "Verif.Declare.C95_edges",
    "Verif.Declare.C95_accepted_partial",
    "Verif.Declare.C95_accepted_false",
    "Verif.Declare.C95_call"
   ],
   "note": "Which lists of conversions work, in full; that accepted ones do, if all parameters declare configs and one is positional; negations proved otherwise."
  },
  {
   "property": "C96",
   "status": "partial",
   "theorems": [
    "Verif.FailedSave.C96_sequential",
    "Verif.FailedSave.C96_running",
    "Verif.FailedSave.C96_closed_partial",
    "Verif.FailedSave.C96_close_ends",
    "Verif.FailedSave.C96_flush_false",
    "Verif.FailedSave.C96_late_false",
    "Verif.FailedSave.C96_late_beyond_false",
    "Verif.FailedSave.C96_error_false"
   ],
   "note": "Without threads, in full.  With threads, if the workers stand still while the output is closed and none has flushed its buffer without listing it; negations proved for the other cases."
  },
  {
   "property": "C97",
   "status": "partial",
   "theorems": [
    "Verif.Overwrite.C97_other",
    "Verif.Overwrite.C97_self_zeros",
    "Verif.Overwrite.C97_self_false"
   ],
   "note": "Another file as output, in full (one model, no threads); the negation for the input file is proved for every model, recipe and set of keys that fit into the output's buffer, and with a witness beyond."
  },
  {
   "property": "C98",
   "status": "proved",
   "theorems": [
    "Verif.Threads.C98_threads",
    "Verif.Threads.C98_tensors",
    "Verif.Threads.C98_ends",
    "Verif.Threads.C98_file"
   ],
   "note": "Loads interleave at every statement of the load (taking the lock, the check, seek, allocation, read, offset, view, release).  Writes interleave as in C05; a key is stored when its worker ends."
  },
  {
   "property": "C99",
   "status": "partial",
   "theorems": [
    "Verif.Whole.C99_file_partial",
    "Verif.Whole.C99_memory_partial",
    "Verif.Whole.C99_recipe_partial"
   ],
   "note": "With omit_extra_keys, the default (C46 has the other case), for recipes whose models know their config (C107 is the case where they do not) and, if inputs are cast, whose inputs can be cast and whose arguments fail in one way only (as in C32, where negations are proved otherwise).  The text reads back for the recipes of C13."
  }
 ]
}