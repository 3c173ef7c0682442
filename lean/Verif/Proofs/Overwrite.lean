import Verif.Model.Overwrite
import Verif.Spec.Overwrite
import Verif.Proofs.FailedSave

/-!
# Saving a recipe over one model
-/
namespace Verif.Overwrite
open StreamOut StreamOut.Spec Spec

theorem run_append (w : StreamOut.State) (a b : List Action) :
    StreamOut.run w (a ++ b) = (StreamOut.run w a).bind fun w' => StreamOut.run w' b := by
  induction a generalizing w with
  | nil => rfl
  | cons x a ih =>
    simp only [List.cons_append, StreamOut.run]
    cases StreamOut.step w x with
    | none => rfl
    | some w' => exact ih w'

theorem stored_append (a b : List Action) : stored (a ++ b) = stored a ++ stored b := by
  induction a with
  | nil => rfl
  | cons x a ih => cases x <;> simp [stored, ih]

theorem stored_put (w : StreamOut.State) (k : Key) (t : Tensor) : stored (putActions w k t) = [(k, t)] := by
  unfold putActions
  simp only
  split_ifs <;> rfl

theorem quiet_set {w w' : StreamOut.State} (hq : Quiescent w) {tid : ℕ} {ts : TState} (hi : ts.pc = .idle)
    (h : w'.threads = w.threads.set tid ts) : Quiescent w' := by
  intro p hp
  rw [h] at hp
  rcases Dict.mem_set hp with rfl | hp
  · exact hi
  · exact hq p hp

theorem set_set {κ ν : Type} [DecidableEq κ] (d : Dict κ ν) (k : κ) (v w : ν) : (d.set k v).set k w = d.set k w := by
  induction d with
  | nil => simp [Dict.set]
  | cons p d ih =>
    obtain ⟨k', v'⟩ := p
    by_cases h : k' = k
    · simp [Dict.set, h]
    · simp [Dict.set, h, ih]

/-- One assignment by the only thread goes through and leaves it outside. -/
theorem put_run {w : StreamOut.State} (hq : Quiescent w) (k : Key) (t : Tensor) :
    ∃ w', put w k t = some w' ∧ Quiescent w' := by
  have hidle : ((w.threads.get? 0).getD ⟨List.replicate w.minBuf 0, 0, [], .idle⟩).pc = .idle := by
    cases h : w.threads.get? 0 with
    | none => rfl
    | some ts => exact hq (0, ts) (Dict.mem_of_get? h)
  unfold put putActions
  simp only
  generalize hts : (w.threads.get? 0).getD ⟨List.replicate w.minBuf 0, 0, [], .idle⟩ = ts at hidle
  split_ifs with hb
  · have h1 : StreamOut.step w (.begin 0 k t) = some { w with threads := w.threads.set 0 { ts with pc := .waitLock k t } } := by
      simp only [StreamOut.step, hts, hidle, if_pos hb]
    simp only [StreamOut.run, h1, Option.bind_some]
    simp only [StreamOut.step, Dict.get?_set_self, Option.bind_some]
    refine ⟨_, rfl, ?_⟩
    refine quiet_set (tid := 0) (ts := ?_) hq ?_ ?_
    · exact store { ts with
        used := 0, buffer := resized w.minBuf ts.buffer t.bytes.length, sub := [], pc := .flushed w.flushedSize k t } k t
    · rfl
    · simp only [set_set]
  · have h1 : StreamOut.step w (.begin 0 k t) = some { w with threads := w.threads.set 0 (store ts k t) } := by
      simp only [StreamOut.step, hts, hidle, if_neg hb]
    simp only [StreamOut.run, h1, Option.bind_some]
    exact ⟨_, rfl, quiet_set (tid := 0) (ts := store ts k t) hq rfl rfl⟩

theorem getItem_missing {r : StreamIn.State} {k : Key} (h : k = metadataKey ∨ ∀ e, r.header.get? k ≠ some (.tensor e)) :
    StreamIn.getItem r k = (r, .error .stateDictKey) := by
  unfold StreamIn.getItem
  cases hg : r.header.get? k with
  | none => rfl
  | some v =>
    cases v with
    | metadata m => rfl
    | tensor e =>
      rcases h with h | h
      · simp [h]
      · exact absurd hg (h e)

/-- Copying from another file. -/
theorem copy_other {file : Bytes} {bs rcap : ℕ} {s0 : StreamIn.State} (hopen : StreamIn.open_ file bs rcap = .ok s0)
    (hvalid : StreamIn.Spec.ValidHeader file s0.headerSize s0.header) (hcap : bs ≤ rcap)
    (hcap' : ∀ k e, s0.header.get? k = some (.tensor e) → e.stop - e.start ≤ rcap) (f : Key → Tensor → Tensor)
    (keys : List Key) : ∀ (history : List Key) (w : StreamOut.State), Quiescent w →
      ∃ as w', copy false f (StreamIn.run s0 (history.map .load)).st w keys = .ok w' ∧ StreamOut.run w as = some w' ∧
        Quiescent w' ∧ stored as = results s0.header (tensorAt file s0.headerSize) f keys := by
  have hrh : ∀ history : List Key, (StreamIn.run s0 (history.map .load)).st.header = s0.header := by
    intro history
    obtain ⟨hf, hb, hc, _⟩ := StreamIn.open_fields hopen
    obtain ⟨G, hG⟩ := StreamIn.run_inv hopen (by rw [hf]; exact hvalid) ⟨by omega, by rw [hc]; exact hcap'⟩ (history.map .load)
    exact hG.header
  induction keys with
  | nil => intro history w hq; exact ⟨[], w, rfl, rfl, hq, rfl⟩
  | cons k keys ih =>
    intro history w hq
    by_cases hm : k = metadataKey ∨ ∀ e, s0.header.get? k ≠ some (.tensor e)
    · have hg := getItem_missing (r := (StreamIn.run s0 (history.map .load)).st) (k := k) (by rw [hrh]; exact hm)
      obtain ⟨as, w', h1, h2, h3, h4⟩ := ih history w hq
      refine ⟨as, w', ?_, h2, h3, ?_⟩
      · simp only [copy, view, Bool.false_eq_true, if_false, hg]
        exact h1
      · rw [h4]
        unfold results
        rw [List.filterMap_cons_none]
        by_cases hk : k = metadataKey
        · rw [if_pos hk]
        · rw [if_neg hk]
          rcases hm with hm | hm
          · exact absurd hm hk
          · split
            · exact absurd ‹_› (hm _)
            · rfl
    · simp only [not_or, not_forall, not_not] at hm
      obtain ⟨hm, e, he⟩ := hm
      obtain ⟨s1, v, g1, g2, g3, g4⟩ := StreamIn.C01_read_exact file bs rcap s0 hopen hvalid hcap hcap' history k e he hm
      have hst : (StreamIn.run s0 ((history ++ [k]).map .load)).st = s1 := by
        rw [List.map_append]
        simp only [List.map_cons, List.map_nil, StreamIn.run_snoc]
        simp only [StreamIn.step, g1]
      obtain ⟨w1, p1, p2⟩ := put_run hq k (f k ⟨v.dtype, v.shape, s1.read v⟩)
      obtain ⟨as, w', h1, h2, h3, h4⟩ := ih (history ++ [k]) w1 p2
      refine ⟨putActions w k (f k ⟨v.dtype, v.shape, s1.read v⟩) ++ as, w', ?_, ?_, h3, ?_⟩
      · simp only [copy, view, Bool.false_eq_true, if_false, g1, p1]
        rw [← hst]
        exact h1
      · have p1' : StreamOut.run w (putActions w k (f k ⟨v.dtype, v.shape, s1.read v⟩)) = some w1 := p1
        rw [run_append, p1']
        exact h2
      · rw [stored_append, stored_put, h4, g2, g3, g4]
        unfold results
        rw [List.filterMap_cons_some (b := (k, f k (tensorAt file s0.headerSize e))) (by simp only [if_neg hm, he])]
        rfl

/-! ## Copying onto the file itself -/

/-- Nothing but zeros has been read. -/
def Zeros (r : StreamIn.State) : Prop := ∀ b ∈ r.heap, ∀ x ∈ b, x = 0

theorem ensure_zeros {r : StreamIn.State} (hz : Zeros r) (hbuf : r.buf < r.heap.length) (hf : r.file = []) (pos len : ℕ) :
    Zeros (StreamIn.ensureBuffer r pos len) ∧
      (StreamIn.ensureBuffer r pos len).buf < (StreamIn.ensureBuffer r pos len).heap.length ∧
      (StreamIn.ensureBuffer r pos len).header = r.header ∧ (StreamIn.ensureBuffer r pos len).headerSize = r.headerSize ∧
      (StreamIn.ensureBuffer r pos len).bufStart ≤ pos ∧
      pos + len ≤ (StreamIn.ensureBuffer r pos len).bufStart + (StreamIn.ensureBuffer r pos len).buffer.length := by
  unfold StreamIn.ensureBuffer
  split_ifs with hc
  · have hgot : ∀ p n, slice r.file p n = [] := by intro p n; simp [slice, hf]
    simp only [hgot, List.length_nil, List.drop_zero, List.nil_append]
    refine ⟨?_, by simp, trivial, trivial, le_refl _, ?_⟩
    · intro b hb x hx
      rcases List.mem_append.1 hb with hb | hb
      · exact hz b hb x hx
      · rw [List.mem_singleton] at hb
        subst hb
        split_ifs at hx with h1
        · exact (List.mem_replicate.1 hx).2
        · have hx' := List.mem_of_mem_take hx
          rw [StreamIn.buffer_eq r hbuf] at hx'
          exact hz _ (List.getElem_mem hbuf) x hx'
    · simp only [StreamIn.State.buffer, List.getD_eq_getElem?_getD, List.getElem?_concat_length, Option.getD_some]
      split_ifs with h1
      · simp
      · simp only [List.length_take]
        omega
  · exact ⟨hz, hbuf, rfl, rfl, by omega, by omega⟩

theorem getItem_zeros {r : StreamIn.State} (hz : Zeros r) (hbuf : r.buf < r.heap.length) (hf : r.file = []) {k : Key} {e : Entry}
    (he : r.header.get? k = some (.tensor e)) (hm : k ≠ metadataKey) (hord : e.start ≤ e.stop)
    (hsize : e.stop - e.start = numel e.shape * Safetensors.width e.dtype) :
    ∃ r' v, StreamIn.getItem r k = (r', .ok v) ∧ Zeros r' ∧ r'.buf < r'.heap.length ∧ r'.header = r.header ∧
      r'.headerSize = r.headerSize ∧
      v.dtype = e.dtype ∧ v.shape = e.shape ∧ r'.read v = List.replicate (e.stop - e.start) 0 := by
  rw [← Safetensors.size_eq] at hsize
  have hspos := StreamIn.DType.size_pos e.dtype
  have hget : StreamIn.getItem r k = StreamIn.loadTensor r e := by simp [StreamIn.getItem, he, hm]
  rw [hget]
  unfold StreamIn.loadTensor
  simp only
  rw [if_neg (by omega)]
  split
  · rename_i h0
    have hn : numel e.shape = 0 := by
      rw [h0] at hsize
      rcases Nat.mul_eq_zero.1 hsize.symm with h | h
      · exact h
      · omega
    rw [if_pos hn]
    refine ⟨_, _, rfl, ?_, by simp only [List.length_append]; omega, rfl, rfl, rfl, rfl, by simp [StreamIn.State.read, slice, h0]⟩
    intro b hb
    rcases List.mem_append.1 hb with hb | hb
    · exact hz b hb
    · simp only [List.mem_singleton] at hb; subst hb; simp
  · rename_i hne
    have hcnt : (e.stop - e.start) / e.dtype.size = numel e.shape := by
      rw [hsize]; exact Nat.mul_div_cancel _ hspos
    obtain ⟨z1, z2, z3, z4, z5, z6⟩ := ensure_zeros hz hbuf hf (8 + r.headerSize + e.start) (e.stop - e.start)
    generalize StreamIn.ensureBuffer r (8 + r.headerSize + e.start) (e.stop - e.start) = s at z1 z2 z3 z4 z5 z6
    rw [hcnt]
    have hnum : numel e.shape * e.dtype.size = e.stop - e.start := hsize.symm
    rw [hnum]
    have hn0 : numel e.shape ≠ 0 := by rintro h0; rw [h0] at hsize; omega
    rw [if_neg (by omega), if_neg (by simp)]
    refine ⟨s, _, rfl, z1, z2, z3, z4, rfl, rfl, ?_⟩
    have hl : s.buffer = s.heap[s.buf] := StreamIn.buffer_eq s z2
    rw [List.eq_replicate_iff]
    constructor
    · simp only [StreamIn.State.read, StreamIn.length_slice]
      change min _ (s.buffer.length - _) = _
      omega
    · intro x hx
      have hx' : x ∈ s.buffer := by
        simp only [StreamIn.State.read, slice] at hx
        exact List.mem_of_mem_drop (List.mem_of_mem_take hx)
      rw [hl] at hx'
      exact z1 _ (List.getElem_mem z2) x hx'

/-- Room left in the buffer of the only thread -/
def room (w : StreamOut.State) : ℕ :=
  match (w.threads.get? 0).getD ⟨List.replicate w.minBuf 0, 0, [], .idle⟩ with
  | ts => ts.buffer.length - ts.used

theorem put_fits {w : StreamOut.State} (hq : Quiescent w) (k : Key) (t : Tensor) (hfit : t.bytes.length ≤ room w) :
    ∃ w', put w k t = some w' ∧ Quiescent w' ∧ w'.file = w.file ∧ room w' = room w - t.bytes.length := by
  obtain ⟨w', h1, h2⟩ := put_run hq k t
  refine ⟨w', h1, h2, ?_⟩
  have hidle : ((w.threads.get? 0).getD ⟨List.replicate w.minBuf 0, 0, [], .idle⟩).pc = .idle := by
    cases h : w.threads.get? 0 with
    | none => rfl
    | some ts => exact hq (0, ts) (Dict.mem_of_get? h)
  unfold put putActions at h1
  unfold room at hfit ⊢
  simp only at h1 hfit ⊢
  generalize hts : (w.threads.get? 0).getD ⟨List.replicate w.minBuf 0, 0, [], .idle⟩ = ts at h1 hfit hidle ⊢
  rw [if_neg (by omega)] at h1
  have hs : StreamOut.step w (.begin 0 k t) = some { w with threads := w.threads.set 0 (store ts k t) } := by
    simp only [StreamOut.step, hts, hidle, if_neg (show ¬ t.bytes.length > ts.buffer.length - ts.used by omega)]
  simp only [StreamOut.run, hs, Option.bind_some, Option.some.injEq] at h1
  subst h1
  refine ⟨rfl, ?_⟩
  simp only [Dict.get?_set_self, Option.getD_some, store, List.length_append, List.length_take, List.length_drop]
  omega

theorem total_cons (p : Key × Tensor) (l : List (Key × Tensor)) : total (p :: l) = p.2.bytes.length + total l := by
  simp [total]

/-- Copying onto the file itself, if everything fits into the output's buffer. -/
theorem copy_self {h : Header} (f : Key → Tensor → Tensor)
    (hv : ∀ k e, h.get? k = some (.tensor e) → e.start ≤ e.stop ∧ e.stop - e.start = numel e.shape * Safetensors.width e.dtype)
    (keys : List Key) : ∀ (r : StreamIn.State) (w : StreamOut.State), Zeros r → r.buf < r.heap.length → r.header = h →
      Quiescent w → w.file.content = [] → total (results h zeroAt f keys) ≤ room w →
      ∃ as w', copy true f r w keys = .ok w' ∧ StreamOut.run w as = some w' ∧ Quiescent w' ∧
        stored as = results h zeroAt f keys := by
  induction keys with
  | nil => intro r w _ _ _ hq _ _; exact ⟨[], w, rfl, rfl, hq, rfl⟩
  | cons k keys ih =>
    intro r w hz hb hh hq hf hroom
    by_cases hm : k = metadataKey ∨ ∀ e, h.get? k ≠ some (.tensor e)
    · have hres : results h zeroAt f (k :: keys) = results h zeroAt f keys := by
        unfold results
        rw [List.filterMap_cons_none]
        by_cases hk : k = metadataKey
        · rw [if_pos hk]
        · rw [if_neg hk]
          rcases hm with hm | hm
          · exact absurd hm hk
          · split
            · exact absurd ‹_› (hm _)
            · rfl
      rw [hres] at hroom ⊢
      have hg := getItem_missing (r := { r with file := w.file.content }) (k := k) (by rw [← hh] at hm; exact hm)
      obtain ⟨as, w', h1, h2, h3, h4⟩ := ih { r with file := w.file.content } w hz hb hh hq hf hroom
      refine ⟨as, w', ?_, h2, h3, h4⟩
      simp only [copy, view, if_true, hg]
      exact h1
    · simp only [not_or, not_forall, not_not] at hm
      obtain ⟨hm, e, he⟩ := hm
      have hres : results h zeroAt f (k :: keys) = (k, f k (zeroAt e)) :: results h zeroAt f keys := by
        unfold results
        rw [List.filterMap_cons_some (b := (k, f k (zeroAt e))) (by simp only [if_neg hm, he])]
      rw [hres, total_cons] at hroom
      rw [hres]
      obtain ⟨hv1, hv2⟩ := hv k e he
      obtain ⟨r', v, g1, g2, g3, g4, _, g5, g6, g7⟩ := getItem_zeros (r := { r with file := w.file.content }) hz hb hf
        (k := k) (e := e) (by rw [← hh] at he; exact he) hm hv1 hv2
      have ht : (⟨v.dtype, v.shape, r'.read v⟩ : Tensor) = zeroAt e := by rw [g5, g6, g7]; rfl
      obtain ⟨w1, p1, p2, p3, p4⟩ := put_fits hq k (f k (zeroAt e)) (by simp only at hroom; omega)
      obtain ⟨as, w', h1, h2, h3, h4⟩ := ih r' w1 g2 g3 (g4.trans hh) p2 (by rw [p3]; exact hf) (by simp only at hroom; omega)
      refine ⟨putActions w k (f k (zeroAt e)) ++ as, w', ?_, ?_, h3, ?_⟩
      · simp only [copy, view, if_true, g1, ht, p1]
        exact h1
      · have p1' : StreamOut.run w (putActions w k (f k (zeroAt e))) = some w1 := p1
        rw [run_append, p1']
        exact h2
      · rw [stored_append, stored_put, h4]
        rfl

end Verif.Overwrite
