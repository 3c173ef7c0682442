import Verif.Py.Text
import Mathlib.Algebra.Field.Basic
import Mathlib.Algebra.BigOperators.Group.Finset.Basic

/-!
# LoRA (sd_mecha/extensions/builtin/lycoris.py)
-/
namespace Verif.Lycoris
open Text

/-! ## Composition -/

/-- A weight: two axes (`linear`, then `kh = kw = 1`) or four.  Entries outside of the sizes do not matter. -/
structure Weight (K : Type) where
  linear : Bool
  out : ℕ
  inp : ℕ
  kh : ℕ
  kw : ℕ
  at' : ℕ → ℕ → ℕ → ℕ → K

namespace Weight

variable {K : Type}

def numel (w : Weight K) : ℕ := w.out * w.inp * w.kh * w.kw

/-- `w * c` -/
def scale [Field K] (w : Weight K) (c : K) : Weight K := { w with at' := fun o i y x => w.at' o i y x * c }

/-- `a @ b` for two axes; `none` is a RuntimeError -/
def matmul [Field K] (a b : Weight K) : Option (Weight K) :=
  if a.inp = b.out then some ⟨true, a.out, b.inp, 1, 1, fun o i _ _ => ∑ r ∈ Finset.range a.inp, a.at' o r 0 0 * b.at' r i 0 0⟩ else none

/-- `w.squeeze(3).squeeze(2)` for four axes, the last two of size one -/
def squeeze (w : Weight K) : Weight K := { w with linear := true }

/-- `w.unsqueeze(2).unsqueeze(3)` for two axes -/
def unsqueeze (w : Weight K) : Weight K := { w with linear := false }

/-- `w.permute(1, 0, 2, 3)` -/
def permute (w : Weight K) : Weight K := { w with out := w.inp, inp := w.out, at' := fun o i y x => w.at' i o y x }

/-- `torch.nn.functional.conv2d(input, weight)` for a batch `input` (the axis `out` counts the batch, `inp` the channels); `none` is a
RuntimeError -/
def conv2d [Field K] (input weight : Weight K) : Option (Weight K) :=
  if weight.inp = input.inp ∧ weight.kh ≤ input.kh ∧ weight.kw ≤ input.kw ∧ 0 < weight.kh ∧ 0 < weight.kw then
    some ⟨false, input.out, weight.out, input.kh + 1 - weight.kh, input.kw + 1 - weight.kw, fun b o y x =>
      ∑ c ∈ Finset.range weight.inp, ∑ dy ∈ Finset.range weight.kh, ∑ dx ∈ Finset.range weight.kw, input.at' b c (y + dy) (x + dx) * weight.at' o c dy dx⟩
  else none

end Weight

/-- `compose_lora_up_down` after the three reads (lycoris.py:42-55).  Weights of different numbers of axes, and an `up` that is not 1×1 beside
a `down` that is, are left out (`none`).  `alpha` is one number. -/
def compose {K : Type} [Field K] (alpha : K) (down up : Weight K) : Option (Weight K) :=
  let dim : K := down.out
  let up' := if up.numel ≤ down.numel then up.scale (alpha / dim) else up
  let down' := if up.numel ≤ down.numel then down else down.scale (alpha / dim)
  if down.linear ≠ up.linear then none
  else if down'.linear then up'.matmul down'
  else if down'.kh = 1 ∧ down'.kw = 1 then
    if up.kh = 1 ∧ up.kw = 1 then (up'.squeeze.matmul down'.squeeze).map (·.unsqueeze) else none
  else (down'.permute.conv2d up').map (·.permute)

/-! ## Keys -/

/-- The name of the module of a key, `none` for keys without (`_to_lycoris_keys`, lycoris.py:93-100).  `floating` is whether the dtype of the
key is a floating point type or unknown. -/
def moduleName (pre : Text) (key : Text) (floating : Bool) : Option Text :=
  if endsWith (key% "bias") key || !floating then none
  else
    let parts := split key
    let parts := if parts.getLast? = some (key% "weight") then parts.dropLast else parts
    some (pre ++ key% "_" ++ join (key% "_") parts)

/-- `lycoris_algorithms["lora"]` (lycoris.py:109-111) -/
def suffixes : List Text := [key% "lora_up.weight", key% "lora_down.weight", key% "alpha"]

/-- `_to_lycoris_keys` for the one algorithm there is: the keys of the dict, in order (lycoris.py:85-106) -/
def toKeys (pre : Text) (keys : List (Text × Bool)) : List Text :=
  (keys.flatMap fun k => match moduleName pre k.1 k.2 with
    | none => []
    | some m => suffixes.map fun s => m ++ key% "." ++ s).foldl (fun acc k => if k ∈ acc then acc else acc ++ [k]) []

/-- `LycorisModelConfig` for the algorithm `lora` (lycoris.py:58-68) -/
structure Config where
  base : Text
  name : Text
  pre : Text
  deriving DecidableEq

def Config.identifier (c : Config) : Text := c.base ++ key% "_" ++ c.name ++ key% "_" ++ key% "lora"

/-- The two configs of a base config (lycoris.py:13-16) -/
def configsOf (base : Text) : List Config := [⟨base, key% "lycoris", key% "lycoris"⟩, ⟨base, key% "kohya", key% "lora"⟩]

/-- A registered conversion: what it converts from and to.  Its function reads the variable `lyco_config` of the enclosing call when it is
called, not when it is defined (lycoris.py:21-32). -/
structure Converter where
  source : Text
  target : Text
  deriving DecidableEq

/-- The state of `_register_all_lycoris_configs` (lycoris.py:10-32): the variable `lyco_config` and what is registered -/
structure State where
  lycoConfig : Option Config
  aux : List Text
  converters : List Converter

/-- One iteration; `none` is the ValueError of `register_aux` for an identifier that is taken (model_configs.py:374-378). -/
def step (bases : List Text) (s : State) (c : Config) : Option State :=
  if c.identifier ∈ bases ∨ c.identifier ∈ s.aux then none
  else some ⟨some c, s.aux ++ [c.identifier], s.converters ++ [⟨c.identifier, c.base⟩]⟩

/-- `_register_all_lycoris_configs` -/
def register (bases : List Text) : Option State := (bases.flatMap configsOf).foldlM (step bases) ⟨none, [], []⟩

/-- The keys fetched for a module, in order (lycoris.py:39-41); the error is the first missing key. -/
def fetch {T : Type} (sd : Text → Option T) (m : Text) : Except Text (T × T × T) := do
  let get (k : Text) : Except Text T := match sd k with | some t => .ok t | none => .error k
  let alpha ← get (m ++ key% "." ++ key% "alpha")
  let down ← get (m ++ key% "." ++ key% "lora_down.weight")
  let up ← get (m ++ key% "." ++ key% "lora_up.weight")
  return (alpha, down, up)

/-- What the function of a registered conversion fetches for a key, after registration has ended in state `s` (lycoris.py:26-32).  The
dtype of the key is not known here. -/
def fetched {T : Type} (s : State) (_ : Converter) (sd : Text → Option T) (key : Text) : Except Text (T × T × T) :=
  match s.lycoConfig with
  | none => .error key
  | some c =>
    match toKeys c.pre [(key, true)] with
    | [] => .error key
    | k :: _ => fetch sd ((split k).headD [])

end Verif.Lycoris
