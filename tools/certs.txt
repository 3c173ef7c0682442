import Verif.Model.Convert
/-! Prints, for each key of a target table, where the model of a conversion reads (used by gen_certs.py). -/
open Verif Convert Text

def txt (s : String) : Text := s.toList.map Char.toNat
def str (t : Text) : String := String.ofList (t.map Char.ofNat)

/-- key, chunk, position, number of axes -/
def load (f : String) : IO (List (String × Nat × Nat × Nat)) := do
  let ls ← IO.FS.lines s!"{f}"
  return ls.toList.map fun l => match l.splitOn "\t" with
    | [k, i, j, n] => (k, i.toNat!, j.toNat!, n.toNat!)
    | _ => ("?", 0, 0, 0)

def cert (m : Std.HashMap String (Nat × Nat × Nat)) (f : Option Conv) : String :=
  let at' (k : Text) : Option String := (m.get? (str k)).map fun (i, j, _) => s!"{i} {j}"
  let r : Option String := match f with
    | none => none
    | some (.read k) => (at' k).map (".read " ++ ·)
    | some (.transposed k) => (at' k).map (".transposed " ++ ·)
    | some (.conv1x1 k) => (at' k).map (".conv1x1 " ++ ·)
    | some (.stacked ks) => do
      let ps ← ks.mapM at'
      let (_, _, n) ← m.get? (str (ks.headD []))
      return (if n = 1 then ".rows " else ".stacked ") ++ " ".intercalate ps
  r.getD ".lost"

def main (args : List String) : IO Unit := do
  let fs : List (String × (Text → Option Conv)) := [("sd1Kohya", sd1Kohya), ("sdxlKohya", sdxlKohya), ("sdxlDiffusers", sdxlDiffusers), ("fluxToBackbone", fluxToBackbone),
    ("sd1Blocks", sd1Blocks), ("sdxlBlocks", sdxlBlocks)]
  match args with
  | [f, tgt, src] =>
    let f := (fs.lookup f).getD fun _ => none
    let m : Std.HashMap String (Nat × Nat × Nat) := Std.HashMap.ofList (← load src)
    for (k, _, _, _) in ← load tgt do IO.println (cert m (f (txt k)))
  | _ => IO.println "usage"
