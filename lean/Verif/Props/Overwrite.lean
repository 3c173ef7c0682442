import Verif.Proofs.Overwrite
import Verif.Props.FailedSave

/-!
# Saving onto another file and onto the input (C97)
-/
namespace Verif.Overwrite
open StreamOut StreamOut.Spec Spec FailedSave.Spec

/-- The names of `results` are among the keys, in their order. -/
theorem results_names (h : Header) (at_ : Entry → Tensor) (f : Key → Tensor → Tensor) (keys : List Key) :
    ((results h at_ f keys).map (·.1)).Sublist keys := by
  induction keys with
  | nil => exact .slnil
  | cons k keys ih =>
    unfold results
    rw [List.filterMap_cons]
    split
    · exact ih.cons k
    · rename_i p hp
      have : p.1 = k := by
        split_ifs at hp
        split at hp
        · simp only [Option.some.injEq] at hp; rw [← hp]
        · cases hp
      rw [List.map_cons, this]
      exact ih.cons_cons k

theorem results_meta (h : Header) (at_ : Entry → Tensor) (f : Key → Tensor → Tensor) (keys : List Key) :
    metadataKey ∉ (results h at_ f keys).map (·.1) := by
  intro hm
  obtain ⟨p, hp, hk⟩ := List.mem_map.1 hm
  obtain ⟨k, _, he⟩ := List.mem_filterMap.1 hp
  split_ifs at he with hn
  split at he
  · simp only [Option.some.injEq] at he
    rw [← he] at hk
    exact hn hk
  · cases he

/-- **C97.**  Saving a recipe over one model to another file: the file opens, lists exactly those of the keys the model has, and each
reads back as what the recipe makes of the tensor the model stores. -/
theorem C97_other (f : Key → Tensor → Tensor) (input : Bytes) (bs rcap : ℕ) (s0 : StreamIn.State)
    (hopen : StreamIn.open_ input bs rcap = .ok s0) (hvalid : StreamIn.Spec.ValidHeader input s0.headerSize s0.header)
    (hcap : bs ≤ rcap) (hcap' : ∀ k e, s0.header.get? k = some (.tensor e) → e.stop - e.start ≤ rcap)
    (keys : List Key) (hk : keys.Nodup) (declared : Dict Key Meta) (recipe : Option (List Char)) (minBuf cap : ℕ)
    (hc : Complete declared recipe minBuf cap (results s0.header (tensorAt input s0.headerSize) f keys))
    (hwf : ∀ p ∈ results s0.header (tensorAt input s0.headerSize) f keys, Tensor.WF p.2)
    (file : Bytes) (hsave : save false f input bs rcap declared recipe minBuf cap keys = .ok file)
    (bs' rcap' : ℕ) (hbs : bs' ≤ rcap')
    (hrc : ∀ p ∈ results s0.header (tensorAt input s0.headerSize) f keys, p.2.bytes.length ≤ rcap') :
    Holds file (results s0.header (tensorAt input s0.headerSize) f keys) bs' rcap' := by
  obtain ⟨as, w, h1, h2, h3, h4⟩ := copy_other hopen hvalid hcap hcap' f keys [] (init declared recipe minBuf cap)
    (by intro p hp; cases hp)
  have h1 : copy false f s0 (init declared recipe minBuf cap) keys = .ok w := h1
  simp only [save, hopen, h1] at hsave
  rw [← h4] at hc hwf hrc ⊢
  have hnd : ((stored as).map (·.1)).Nodup := by
    rw [h4]; exact hk.sublist (results_names s0.header (tensorAt input s0.headerSize) f keys)
  obtain ⟨s1, r1, r2, _, r4⟩ := C05_readback declared recipe minBuf cap as w file h2 h3 hc hsave hnd
    (by rw [h4]; exact results_meta _ _ _ _) hwf bs' rcap' hbs hrc
  exact ⟨s1, r1, r2, r4⟩

/-- **C97 is false of the code when the output is the input file**: if the output's buffer holds the results, then for every model, every
set of keys and every recipe over it the merge succeeds, and what it leaves are the results the recipe has on a model of zeros.  The model
that was in the file is lost. -/
theorem C97_self_zeros (f : Key → Tensor → Tensor) (input : Bytes) (bs rcap : ℕ) (s0 : StreamIn.State)
    (hopen : StreamIn.open_ input bs rcap = .ok s0) (hvalid : StreamIn.Spec.ValidHeader input s0.headerSize s0.header)
    (keys : List Key) (hk : keys.Nodup) (declared : Dict Key Meta) (recipe : Option (List Char)) (minBuf cap : ℕ) (hm : 0 < minBuf)
    (hfits : total (results s0.header zeroAt f keys) ≤ minBuf)
    (hc : Complete declared recipe minBuf cap (results s0.header zeroAt f keys))
    (hwf : ∀ p ∈ results s0.header zeroAt f keys, Tensor.WF p.2)
    (bs' rcap' : ℕ) (hbs : bs' ≤ rcap') (hrc : ∀ p ∈ results s0.header zeroAt f keys, p.2.bytes.length ≤ rcap') :
    (∃ file, save true f input bs rcap declared recipe minBuf cap keys = .ok file ∧
      Holds file (results s0.header zeroAt f keys) bs' rcap') ∨
    save true f input bs rcap declared recipe minBuf cap keys = .error .struct := by
  obtain ⟨hf, hb, hcp, hheap, hbuf, _, _⟩ := StreamIn.open_fields hopen
  obtain ⟨as, w, h1, h2, h3, h4⟩ := copy_self (h := s0.header) f
    (fun k e he => ⟨(hvalid k e he).ordered, (hvalid k e he).size⟩) keys s0 (init declared recipe minBuf cap)
    (by
      intro b hb' x hx
      rw [hheap, List.mem_singleton] at hb'
      subst hb'; cases hx)
    (by rw [hheap, hbuf]; decide) rfl (by intro p hp; cases hp) rfl
    (by
      refine le_trans hfits (le_of_eq ?_)
      simp [room, init, Dict.get?])
  have hnd : ((stored as).map (·.1)).Nodup := by
    rw [h4]; exact hk.sublist (results_names s0.header zeroAt f keys)
  have hs : save true f input bs rcap declared recipe minBuf cap keys = close w := by simp only [save, hopen, h1]
  rw [hs]
  rw [← h4] at hc hwf hrc ⊢
  rcases C05_close_succeeds declared recipe minBuf cap as w h2 h3 hc hm with ⟨file, hcl⟩ | hcl
  · obtain ⟨s1, r1, r2, _, r4⟩ := C05_readback declared recipe minBuf cap as w file h2 h3 hc hcl hnd
      (by rw [h4]; exact results_meta _ _ _ _) hwf bs' rcap' hbs hrc
    exact Or.inl ⟨file, hcl, s1, r1, r2, r4⟩
  · exact Or.inr hcl

/-- Copying the example model (`a` = [1,2,3], `b` = [4,5]) unchanged -/
def exKeys : List Key := [['a'], ['x'], ['b']]

def exSaved (shared : Bool) : Bytes :=
  match save shared (fun _ t => t) StreamIn.exFile 2 1000 exDeclared none 8 1000 exKeys with | .ok f => f | .error _ => []

theorem exSave (shared : Bool) :
    save shared (fun _ t => t) StreamIn.exFile 2 1000 exDeclared none 8 1000 exKeys = .ok (exSaved shared) := by
  have h : ∀ b : Bool, (match save b (fun _ t => t) StreamIn.exFile 2 1000 exDeclared none 8 1000 exKeys with
      | .ok _ => true | .error _ => false) = true := by decide +kernel
  have := h shared
  unfold exSaved
  cases hs : save shared (fun _ t => t) StreamIn.exFile 2 1000 exDeclared none 8 1000 exKeys with
  | ok f => rfl
  | error e => rw [hs] at this; cases this

theorem exResults : results (StreamIn.exState 2 1000).header (tensorAt StreamIn.exFile 105) (fun _ t => t) exKeys =
    [(['a'], exT [1, 2, 3]), (['b'], exT [4, 5])] := by decide +kernel

theorem exZeros : results (StreamIn.exState 2 1000).header zeroAt (fun _ t => t) exKeys =
    [(['a'], exT [0, 0, 0]), (['b'], exT [0, 0])] := by decide +kernel

/-- To another file: a faithful copy. -/
example : Holds (exSaved false) [(['a'], exT [1, 2, 3]), (['b'], exT [4, 5])] 1 1000 := by
  have := C97_other (fun _ t => t) StreamIn.exFile 2 1000 _ (StreamIn.exOpen 2 1000) (StreamIn.exValid 2 1000) (by decide)
    (StreamIn.exCap 2 1000 (by decide)) exKeys (by decide) exDeclared none 8 1000
    (by rw [show (StreamIn.exState 2 1000).headerSize = 105 from rfl, exResults]
        exact ⟨by decide, by decide +kernel, by decide, by decide +kernel⟩)
    (by rw [show (StreamIn.exState 2 1000).headerSize = 105 from rfl, exResults]; decide) _ (exSave false) 1 1000 (by decide)
    (by rw [show (StreamIn.exState 2 1000).headerSize = 105 from rfl, exResults]; decide)
  rw [show (StreamIn.exState 2 1000).headerSize = 105 from rfl, exResults] at this
  exact this

/-- Onto itself: zeros. -/
example : Holds (exSaved true) [(['a'], exT [0, 0, 0]), (['b'], exT [0, 0])] 1 1000 := by
  have := C97_self_zeros (fun _ t => t) StreamIn.exFile 2 1000 _ (StreamIn.exOpen 2 1000) (StreamIn.exValid 2 1000)
    exKeys (by decide) exDeclared none 8 1000 (by decide) (by rw [exZeros]; decide)
    (by rw [exZeros]; exact ⟨by decide, by decide +kernel, by decide, by decide +kernel⟩)
    (by rw [exZeros]; decide) 1 1000 (by decide) (by rw [exZeros]; decide)
  rw [exZeros] at this
  rcases this with ⟨file, h1, h2⟩ | h
  · rw [exSave] at h1
    rw [Except.ok.inj h1]
    exact h2
  · rw [exSave] at h
    exact absurd h (by simp)

/-- **C97 is false of the code when the output is the input file**, also if the output's buffer is smaller: a copy of the model onto itself
returns normally, the file opens, and `a` does not read as what the model stored. -/
theorem C97_self_false :
    ∃ (input : Bytes) (s0 : StreamIn.State) (keys : List Key) (declared : Dict Key Meta) (minBuf cap : ℕ) (k : Key) (e : Entry) (file : Bytes),
      StreamIn.open_ input 2 1000 = .ok s0 ∧ StreamIn.Spec.ValidHeader input s0.headerSize s0.header ∧
      s0.header.get? k = some (.tensor e) ∧ k ∈ keys ∧ minBuf < total (results s0.header zeroAt (fun _ t => t) keys) ∧
      save true (fun _ t => t) input 2 1000 declared none minBuf cap keys = .ok file ∧
      FailedSave.Spec.Corrupt file k (tensorAt input s0.headerSize e) := by
  refine ⟨StreamIn.exFile, StreamIn.exState 2 1000, exKeys, exDeclared, 3, 1000, ['a'], StreamIn.exA,
    (match save true (fun _ t => t) StreamIn.exFile 2 1000 exDeclared none 3 1000 exKeys with | .ok f => f | .error _ => []),
    StreamIn.exOpen 2 1000, StreamIn.exValid 2 1000, rfl, by decide, by rw [exZeros]; decide, by decide +kernel,
    FailedSave.corrupt_of (v := ⟨.u8, [3], 1, 0, 3⟩) (FailedSave.opens_of (by decide +kernel)) (by decide +kernel) (by decide +kernel)⟩

end Verif.Overwrite
