import Verif.Py.Dict
import Verif.Py.Err

/-!
# Options of a merge and their defaults (sd_mecha/merging.py:31-48, 95-128; sd_mecha/helpers.py:76-214)
-/
namespace Verif.Defaults

/-- The keyword options of `merge` (merging.py:33-47) -/
inductive Opt where
  | fallbackModel | mergeDevice | mergeDtype | outputDevice | outputDtype | threads | totalBufferSize | modelDirs | strictWeightSpace
  | checkFinite | omitExtraKeys | omitEma | checkMandatoryKeys | tqdm | output
  deriving DecidableEq, Repr

/-- Values of options.  `list` and `tuple` stand for sequences of that type, `obj` for any other object. -/
inductive V where
  | none
  | bool (b : Bool)
  | int (i : Int)
  | str (s : String)
  | path (s : String)
  | list (l : List V)
  | tuple (l : List V)
  | obj (name : String)
  deriving Repr

/-- Options as given in a call: `none` is `...`, that is, not given. -/
abbrev Given := Opt → Option V

/-- `list(model_dirs)` (merging.py:113-114): strings and paths are not sequences of directories; iterating over a string gives its
characters, a path cannot be iterated over. -/
def listOf : V → Except Err (List V)
  | .list l => .ok l
  | .tuple l => .ok l
  | .str s => .ok (s.toList.map fun c => .str (String.singleton c))
  | _ => .error .type

/-- Resolution of the defaults in `merge` (merging.py:95-126) for every option except `model_dirs` -/
def mergeOption (g : Given) : Opt → V
  | .output => (g .output).getD .none
  | .fallbackModel => (g .fallbackModel).getD .none
  | .mergeDevice => (g .mergeDevice).getD (.str "cpu")
  | .mergeDtype => (g .mergeDtype).getD (.obj "torch.float64")
  | .outputDevice => (g .outputDevice).getD (.str "cpu")
  | .outputDtype => (g .outputDtype).getD (.obj "torch.float16")
  | .threads => (g .threads).getD .none
  | .totalBufferSize => (g .totalBufferSize).getD (.int (2 ^ 28))
  | .modelDirs => (g .modelDirs).getD (.tuple [])
  | .strictWeightSpace => (g .strictWeightSpace).getD (.bool true)
  | .checkFinite => (g .checkFinite).getD (.bool true)
  | .omitExtraKeys => (g .omitExtraKeys).getD (.bool true)
  | .omitEma => (g .omitEma).getD ((g .omitExtraKeys).getD (.bool true))
  | .checkMandatoryKeys => (g .checkMandatoryKeys).getD (.bool false)
  | .tqdm => (g .tqdm).getD (.obj "tqdm.tqdm")

/-- `model_dirs` in `merge` (merging.py:111-114) -/
def mergeDirs (g : Given) : Except Err (List V) :=
  match g .modelDirs with
  | none => .ok []
  | some v => listOf v

/-- One directory (helpers.py:208-212); `absolute` is `pathlib.Path.absolute`. -/
def absoluteDir (absolute : String → String) : V → Except Err V
  | .str s => .ok (.path (absolute s))
  | .path s => .ok (.path (absolute s))
  | .none => .ok .none
  | _ => .error .attribute

def absoluteDirs (absolute : String → String) : List V → Except Err (List V)
  | [] => .ok []
  | d :: ds =>
    match absoluteDir absolute d with
    | .error e => .error e
    | .ok d =>
      match absoluteDirs absolute ds with
      | .error e => .error e
      | .ok ds => .ok (d :: ds)

/-- `_model_dirs_to_pathlib_list` (helpers.py:201-214) -/
def dirList (absolute : String → String) (g : Option V) : Except Err (List V) :=
  match g with
  | none => .ok []
  | some (.list l) => absoluteDirs absolute l
  | some v => absoluteDirs absolute [v]

/-- What `Defaults.merge` passes on (helpers.py:156-199), `self` holding the options of the instance.  `fallback_model` and `output` have no
instance default; that of `tqdm` is not used. -/
def passed (self call : Given) (dirs : List V) : Given
  | .fallbackModel => call .fallbackModel
  | .output => call .output
  | .tqdm => call .tqdm
  | .modelDirs => some (.list dirs)
  | o => (call o).or (self o)

/-- What a call of `Defaults.merge` merges with: the options and the directories -/
def defaultsMerge (absolute : String → String) (self call : Given) : Except Err ((Opt → V) × List V) :=
  match dirList absolute ((call .modelDirs).or (self .modelDirs)) with
  | .error e => .error e
  | .ok dirs =>
    match mergeDirs (passed self call dirs) with
    | .error e => .error e
    | .ok ds => .ok (mergeOption (passed self call dirs), ds)

/-- The directories `Defaults.convert` passes on (helpers.py:126-129) -/
def defaultsConvert (absolute : String → String) (self : Given) (dirs : Option V) : Except Err (List V) :=
  dirList absolute (dirs.or (self .modelDirs))

end Verif.Defaults
