import Verif.Model.StreamIn
import Verif.Spec.StreamIn
import Verif.Proofs.Safetensors
import Mathlib.Data.List.Induction

namespace Verif.StreamIn
open Spec

theorem getElem?_slice (b : Bytes) (s l i : ℕ) : (slice b s l)[i]? = if i < l then b[s + i]? else none := by
  unfold slice
  rw [List.getElem?_take, List.getElem?_drop]

theorem length_slice (b : Bytes) (s l : ℕ) : (slice b s l).length = min l (b.length - s) := by
  simp [slice]

theorem DType.size_pos (d : DType) : 0 < d.size := by cases d <;> decide

/-- File position `p` was written to through some tensor handed out for an entry covering `p`. -/
def Dirty (hs : ℕ) (h : Header) (ops : List Op) (p : ℕ) : Prop :=
  ∃ (j i : ℕ) (d : Bytes) (k : Key) (e : Entry), ops[j]? = some (Op.write i d) ∧ i < j ∧ ops[i]? = some (Op.load k) ∧
    h.get? k = some (.tensor e) ∧ Covers hs e p

theorem Dirty.mono {hs h ops p} (op) (hd : Dirty hs h ops p) : Dirty hs h (ops ++ [op]) p := by
  obtain ⟨j, i, d, k, e, h1, hij, h2, h3, h4⟩ := hd
  refine ⟨j, i, d, k, e, ?_, hij, ?_, h3, h4⟩
  · rw [List.getElem?_append_left]
    · exact h1
    · exact (List.getElem?_eq_some_iff.1 h1).1
  · rw [List.getElem?_append_left]
    · exact h2
    · exact (List.getElem?_eq_some_iff.1 h2).1

/-- Invariant of runs on an opened file (`G` is the file offset of every buffer). -/
structure Inv (s0 : State) (ops : List Op) (r : Run) (G : List ℕ) : Prop where
  file : r.st.file = s0.file
  hs : r.st.headerSize = s0.headerSize
  header : r.st.header = s0.header
  dbs : r.st.defaultBufferSize = s0.defaultBufferSize
  cap : r.st.cap = s0.cap
  glen : G.length = r.st.heap.length
  gbuf : G[r.st.buf]? = some r.st.bufStart
  outlen : r.outs.length = ops.length
  clean : ∀ i x, r.st.buffer[i]? = some x → r.st.bufStart + i < s0.file.length →
    s0.file[r.st.bufStart + i]? = some x ∨ Dirty s0.headerSize s0.header ops (r.st.bufStart + i)
  views : ∀ (i : ℕ) v, r.outs[i]? = some (some (.ok v)) → ∃ k e, ops[i]? = some (.load k) ∧
    s0.header.get? k = some (.tensor e) ∧ v.buf < r.st.heap.length ∧ v.len = e.stop - e.start ∧
    (0 < v.len → ∃ g, G[v.buf]? = some g ∧ g + v.off = first s0.headerSize e ∧
      v.off + v.len ≤ (r.st.heap.getD v.buf []).length)

theorem buffer_eq (s : State) (h : s.buf < s.heap.length) : s.buffer = s.heap[s.buf] := by
  simp [State.buffer, h]

/-- What `_ensure_buffer` guarantees. -/
theorem ensureBuffer_spec {s0 : State} {ops r G} (hI : Inv s0 ops r G) (pos len : ℕ)
    (hcap : max s0.defaultBufferSize len ≤ s0.cap) :
    ∃ G', Inv s0 ops ⟨ensureBuffer r.st pos len, r.outs⟩ G' ∧ G <+: G' ∧
      (ensureBuffer r.st pos len).bufStart ≤ pos ∧
      pos + len ≤ (ensureBuffer r.st pos len).bufStart + (ensureBuffer r.st pos len).buffer.length ∧
      r.st.heap <+: (ensureBuffer r.st pos len).heap := by
  unfold ensureBuffer
  split
  · rename_i hmiss
    set necessary := max r.st.defaultBufferSize len with hn
    set fresh : Bytes := if r.st.buffer.length < necessary then List.replicate necessary 0
      else r.st.buffer.take necessary with hfresh
    have hfl : fresh.length = necessary := by
      rw [hfresh]; split <;> simp; omega
    set got := slice r.st.file pos (min fresh.length r.st.cap) with hgot
    have hcap' : necessary ≤ r.st.cap := by rw [hn, hI.dbs, hI.cap]; exact hcap
    have hgl : got.length ≤ fresh.length := by
      rw [hgot, length_slice]; omega
    have hbuf : (r.st.heap ++ [got ++ fresh.drop got.length]).getD r.st.heap.length [] =
        got ++ fresh.drop got.length := by
      simp
    have hbl : (got ++ fresh.drop got.length).length = necessary := by
      simp; omega
    refine ⟨G ++ [pos], ?_, ⟨_, rfl⟩, le_refl _, ?_, ⟨_, rfl⟩⟩
    · constructor
      · exact hI.file
      · exact hI.hs
      · exact hI.header
      · exact hI.dbs
      · exact hI.cap
      · simp [hI.glen]
      · simp only
        rw [← hI.glen]; simp
      · exact hI.outlen
      · intro i x hx hp
        left
        change (List.getD (r.st.heap ++ [got ++ fresh.drop got.length]) r.st.heap.length [])[i]? = some x at hx
        change pos + i < _ at hp
        change s0.file[pos + i]? = some x
        rw [hbuf] at hx
        have hi : i < necessary := by
          have := (List.getElem?_eq_some_iff.1 hx).1; omega
        have hgi : i < got.length := by
          rw [hgot, length_slice, hI.file]; simp only [Nat.lt_min]; omega
        rw [List.getElem?_append_left hgi, hgot, getElem?_slice, hI.file] at hx
        split at hx
        · exact hx
        · cases hx
      · intro i v hv
        obtain ⟨k, e, h1, h2, h3, h4, h5⟩ := hI.views i v hv
        refine ⟨k, e, h1, h2, by simp; omega, h4, ?_⟩
        intro hp
        obtain ⟨g, g1, g2, g3⟩ := h5 hp
        refine ⟨g, ?_, g2, ?_⟩
        · rw [List.getElem?_append_left]
          · exact g1
          · exact (List.getElem?_eq_some_iff.1 g1).1
        · simp only [List.getD_eq_getElem?_getD] at g3 ⊢
          rw [List.getElem?_append_left h3]; exact g3
    · change pos + len ≤ pos + (List.getD (r.st.heap ++ [got ++ fresh.drop got.length]) r.st.heap.length []).length
      rw [hbuf, hbl]; omega
  · rename_i hhit
    push Not at hhit
    refine ⟨G, hI, List.prefix_rfl, by omega, by omega, List.prefix_rfl⟩

theorem Inv.addNone {s0 ops r G} (hI : Inv s0 ops r G) (op : Op) (o : Option (Except Err View))
    (ho : ∀ v, o ≠ some (.ok v)) : Inv s0 (ops ++ [op]) ⟨r.st, r.outs ++ [o]⟩ G := by
  constructor
  · exact hI.file
  · exact hI.hs
  · exact hI.header
  · exact hI.dbs
  · exact hI.cap
  · exact hI.glen
  · exact hI.gbuf
  · simp [hI.outlen]
  · intro i x hx hp
    rcases hI.clean i x hx hp with h | h
    · exact Or.inl h
    · exact Or.inr (h.mono op)
  · intro i v hv
    by_cases hi : i < r.outs.length
    · rw [List.getElem?_append_left hi] at hv
      obtain ⟨k, e, h1, h2⟩ := hI.views i v hv
      refine ⟨k, e, ?_, h2⟩
      rw [List.getElem?_append_left (by rw [← hI.outlen]; exact hi)]; exact h1
    · exfalso
      rw [List.getElem?_append_right (by omega)] at hv
      rcases Nat.eq_zero_or_pos (i - r.outs.length) with h | h
      · rw [h] at hv; simp at hv; exact ho v hv
      · rw [List.getElem?_eq_none (by simp; omega)] at hv; cases hv

/-- A fresh view appended. -/
theorem Inv.addView {s0 ops r G} (hI : Inv s0 ops r G) (k : Key) (e : Entry) (v : View)
    (hk : s0.header.get? k = some (.tensor e))
    (hb : v.buf < r.st.heap.length) (hl : v.len = e.stop - e.start)
    (hg : 0 < v.len → ∃ g, G[v.buf]? = some g ∧ g + v.off = first s0.headerSize e ∧
      v.off + v.len ≤ (r.st.heap.getD v.buf []).length) :
    Inv s0 (ops ++ [.load k]) ⟨r.st, r.outs ++ [some (.ok v)]⟩ G := by
  constructor
  · exact hI.file
  · exact hI.hs
  · exact hI.header
  · exact hI.dbs
  · exact hI.cap
  · exact hI.glen
  · exact hI.gbuf
  · simp [hI.outlen]
  · intro i x hx hp
    rcases hI.clean i x hx hp with h | h
    · exact Or.inl h
    · exact Or.inr (h.mono _)
  · intro i v' hv
    by_cases hi : i < r.outs.length
    · rw [List.getElem?_append_left hi] at hv
      obtain ⟨k, e, h1, h2⟩ := hI.views i v' hv
      refine ⟨k, e, ?_, h2⟩
      rw [List.getElem?_append_left (by rw [← hI.outlen]; exact hi)]; exact h1
    · rw [List.getElem?_append_right (by omega)] at hv
      rcases Nat.eq_zero_or_pos (i - r.outs.length) with h | h
      · rw [h] at hv; simp at hv; subst hv
        have : i = ops.length := by rw [← hI.outlen]; omega
        subst this
        exact ⟨k, e, by simp, hk, hb, hl, hg⟩
      · rw [List.getElem?_eq_none (by simp; omega)] at hv; cases hv

/-- Transfers of one call are complete: the OS cap exceeds every size asked for. -/
def CapOk (s0 : State) : Prop :=
  s0.defaultBufferSize ≤ s0.cap ∧ ∀ k e, s0.header.get? k = some (.tensor e) → e.stop - e.start ≤ s0.cap

/-- Effect of a load on a valid entry. -/
theorem load_spec {s0 : State} {ops r G} (hI : Inv s0 ops r G)
    (hv : ValidHeader s0.file s0.headerSize s0.header) (hc : CapOk s0)
    {k : Key} {e : Entry} (hk : s0.header.get? k = some (.tensor e)) (hm : k ≠ metadataKey) :
    ∃ s v G', getItem r.st k = (s, .ok v) ∧ Inv s0 (ops ++ [.load k]) ⟨s, r.outs ++ [some (.ok v)]⟩ G' ∧
      v.dtype = e.dtype ∧ v.shape = e.shape ∧ v.len = e.stop - e.start ∧ r.st.heap <+: s.heap ∧
      (0 < v.len → v.buf = s.buf) := by
  have hve := hv k e hk
  obtain ⟨hord, hin, hsz⟩ := hve
  rw [← Safetensors.size_eq] at hsz
  have hspos := DType.size_pos e.dtype
  have hget : getItem r.st k = loadTensor r.st e := by
    simp [getItem, hI.header, hk, hm]
  rw [hget]
  unfold loadTensor
  simp only
  rw [if_neg (by omega)]
  split
  · rename_i h0
    have hn : numel e.shape = 0 := by
      rw [h0] at hsz
      rcases Nat.mul_eq_zero.1 hsz.symm with h | h
      · exact h
      · omega
    rw [if_pos hn]
    refine ⟨_, _, G ++ [0], rfl, ?_, rfl, rfl, by simp [h0], ⟨_, rfl⟩, by simp⟩
    have hb : r.st.buf < r.st.heap.length := by
      rw [← hI.glen]; exact (List.getElem?_eq_some_iff.1 hI.gbuf).1
    have hI' : Inv s0 ops ⟨{ r.st with heap := r.st.heap ++ [[]] }, r.outs⟩ (G ++ [0]) := by
      constructor
      · exact hI.file
      · exact hI.hs
      · exact hI.header
      · exact hI.dbs
      · exact hI.cap
      · simp [hI.glen]
      · simp only
        rw [List.getElem?_append_left (by rw [hI.glen]; exact hb)]; exact hI.gbuf
      · exact hI.outlen
      · intro i x hx hp
        apply hI.clean i x ?_ hp
        simp only [State.buffer, List.getD_eq_getElem?_getD] at hx ⊢
        rw [List.getElem?_append_left hb] at hx; exact hx
      · intro i v hv
        obtain ⟨k, e, h1, h2, h3, h4, h5⟩ := hI.views i v hv
        refine ⟨k, e, h1, h2, by simp; omega, h4, ?_⟩
        intro hp
        obtain ⟨g, g1, g2, g3⟩ := h5 hp
        refine ⟨g, ?_, g2, ?_⟩
        · rw [List.getElem?_append_left]
          · exact g1
          · exact (List.getElem?_eq_some_iff.1 g1).1
        · simp only [List.getD_eq_getElem?_getD] at g3 ⊢
          rw [List.getElem?_append_left h3]; exact g3
    exact hI'.addView k e ⟨e.dtype, e.shape, r.st.heap.length, 0, 0⟩ hk (by simp) (by simp [h0]) (by simp)
  · rename_i hne
    have hcnt : (e.stop - e.start) / e.dtype.size = numel e.shape := by
      rw [hsz]; exact Nat.mul_div_cancel _ hspos
    have hhs : r.st.headerSize = s0.headerSize := hI.hs
    obtain ⟨G', hI', hpre, h1, h2, h3⟩ := ensureBuffer_spec hI (8 + r.st.headerSize + e.start)
      (e.stop - e.start) (by have := hc.1; have := hc.2 k e hk; omega)
    set s := ensureBuffer r.st (8 + r.st.headerSize + e.start) (e.stop - e.start) with hs
    rw [hcnt]
    have hnum : numel e.shape * e.dtype.size = e.stop - e.start := hsz.symm
    rw [hnum]
    have hn0 : numel e.shape ≠ 0 := by rintro h0; rw [h0] at hsz; omega
    rw [if_neg (by omega), if_neg (by simp)]
    refine ⟨s, _, G', rfl, ?_, rfl, rfl, by simp, h3, by simp⟩
    have hb : s.buf < s.heap.length := by
      rw [← hI'.glen]; exact (List.getElem?_eq_some_iff.1 hI'.gbuf).1
    refine hI'.addView k e _ hk hb (by simp) ?_
    intro _
    refine ⟨s.bufStart, hI'.gbuf, ?_, ?_⟩
    · simp only [first]; omega
    · change _ ≤ s.buffer.length
      simp only; omega

theorem overwrite_length (b d : Bytes) (off : ℕ) (h : off + d.length ≤ b.length) :
    (overwrite b off d).length = b.length := by
  simp [overwrite]; omega

theorem getElem?_overwrite (b d : Bytes) (off i : ℕ) (h : off + d.length ≤ b.length) :
    (overwrite b off d)[i]? = if off ≤ i ∧ i < off + d.length then d[i - off]? else b[i]? := by
  unfold overwrite
  have hl : (b.take off).length = off := by simp; omega
  rcases Nat.lt_or_ge i off with h1 | h1
  · rw [if_neg (by omega), List.append_assoc, List.getElem?_append_left (by omega), List.getElem?_take]
    simp [h1]
  · rw [List.append_assoc, List.getElem?_append_right (by omega), hl]
    rcases Nat.lt_or_ge i (off + d.length) with h2 | h2
    · rw [if_pos ⟨h1, h2⟩, List.getElem?_append_left (by omega)]
    · rw [if_neg (by omega), List.getElem?_append_right (by omega), List.getElem?_drop]
      congr 1; omega

/-- Every step preserves the invariant (for valid headers and complete transfers). -/
theorem step_inv {s0 : State} (hv : ValidHeader s0.file s0.headerSize s0.header) (hc : CapOk s0)
    {ops r G} (hI : Inv s0 ops r G) (op : Op) : ∃ G', Inv s0 (ops ++ [op]) (step r op) G' := by
  cases op with
  | load k =>
    simp only [step]
    by_cases hm : k = metadataKey
    · have : ∃ e, getItem r.st k = (r.st, .error e) := by
        refine ⟨.stateDictKey, ?_⟩
        unfold getItem
        split <;> simp [hm]
      obtain ⟨e, he⟩ := this
      rw [he]
      exact ⟨G, hI.addNone _ _ (by simp)⟩
    · cases hk : s0.header.get? k with
      | none =>
        have : getItem r.st k = (r.st, .error .stateDictKey) := by simp [getItem, hI.header, hk]
        rw [this]
        exact ⟨G, hI.addNone _ _ (by simp)⟩
      | some x =>
        cases x with
        | metadata fs =>
          have : getItem r.st k = (r.st, .error .stateDictKey) := by simp [getItem, hI.header, hk]
          rw [this]
          exact ⟨G, hI.addNone _ _ (by simp)⟩
        | tensor e =>
          obtain ⟨s, v, G', h1, h2, _⟩ := load_spec hI hv hc hk hm
          rw [h1]
          exact ⟨G', h2⟩
  | write i d =>
    simp only [step]
    split
    · rename_i v hout
      split
      · rename_i hlen
        obtain ⟨k, e, hk1, hk2, hk3, hk4, hk5⟩ := hI.views i v hout
        by_cases hp : 0 < v.len
        · obtain ⟨g, g1, g2, g3⟩ := hk5 hp
          refine ⟨G, ?_⟩
          have hget : ∀ j, ((r.st.heap.modify v.buf fun b => overwrite b v.off d).getD j []) =
              if v.buf = j then overwrite (r.st.heap.getD j []) v.off d else r.st.heap.getD j [] := by
            intro j
            simp only [List.getD_eq_getElem?_getD, List.getElem?_modify]
            by_cases hj : v.buf = j
            · subst hj
              simp [hk3]
            · simp [hj]
          have hlen' : ∀ j, ((r.st.heap.modify v.buf fun b => overwrite b v.off d).getD j []).length =
              (r.st.heap.getD j []).length := by
            intro j
            rw [hget]
            split
            · rename_i hj; subst hj
              rw [overwrite_length]; omega
            · rfl
          constructor
          · exact hI.file
          · exact hI.hs
          · exact hI.header
          · exact hI.dbs
          · exact hI.cap
          · simp [poke, hI.glen]
          · exact hI.gbuf
          · simp [hI.outlen]
          · intro j x hx hpos
            simp only [State.buffer, poke] at hx hpos ⊢
            rw [hget] at hx
            split at hx
            · rename_i hb
              rw [← hb] at hx
              rw [getElem?_overwrite _ _ _ _ (by omega)] at hx
              have hgs : g = r.st.bufStart := by
                have := hI.gbuf; rw [← hb, g1] at this; simpa using this
              split at hx
              · rename_i hrange
                right
                refine ⟨ops.length, i, d, k, e, by simp, (List.getElem?_eq_some_iff.1 hk1).1, ?_, hk2, ?_⟩
                · rw [List.getElem?_append_left (by
                    exact (List.getElem?_eq_some_iff.1 hk1).1)]
                  exact hk1
                · unfold Covers
                  simp only [first, last] at *
                  omega
              · rcases hI.clean j x (by rw [hb] at hx; exact hx) hpos with h | h
                · exact Or.inl h
                · exact Or.inr (h.mono _)
            · rcases hI.clean j x hx hpos with h | h
              · exact Or.inl h
              · exact Or.inr (h.mono _)
          · intro j v' hv'
            by_cases hj : j < r.outs.length
            · rw [List.getElem?_append_left hj] at hv'
              obtain ⟨k', e', h1, h2, h3, h4, h5⟩ := hI.views j v' hv'
              refine ⟨k', e', ?_, h2, by simpa [poke] using h3, h4, ?_⟩
              · rw [List.getElem?_append_left (by rw [← hI.outlen]; exact hj)]; exact h1
              · intro hp'
                obtain ⟨g', q1, q2, q3⟩ := h5 hp'
                refine ⟨g', q1, q2, ?_⟩
                simp only [poke]
                rw [hlen']; exact q3
            · exfalso
              rw [List.getElem?_append_right (by omega)] at hv'
              rcases Nat.eq_zero_or_pos (j - r.outs.length) with h | h
              · rw [h] at hv'; simp at hv'
              · rw [List.getElem?_eq_none (by simp; omega)] at hv'; cases hv'
        · -- empty tensor: nothing is written
          have hd : d = [] := List.length_eq_zero_iff.1 (by omega)
          have hp : poke r.st v d = r.st := by
            subst hd
            have : (fun b : Bytes => overwrite b v.off []) = id := by
              funext b; simp [overwrite]
            unfold poke
            rw [this]
            simp
          rw [hp]
          exact ⟨G, hI.addNone _ _ (by simp)⟩
      · exact ⟨G, hI.addNone _ _ (by simp)⟩
    · exact ⟨G, hI.addNone _ _ (by simp)⟩

end Verif.StreamIn

namespace Verif.StreamIn
open Spec

theorem open_fields {file : Bytes} {bs cap : ℕ} {s0 : State} (h : open_ file bs cap = .ok s0) :
    s0.file = file ∧ s0.defaultBufferSize = bs ∧ s0.cap = cap ∧ s0.heap = [[]] ∧ s0.buf = 0 ∧
    s0.bufStart = 8 + s0.headerSize ∧ readHeader file = .ok (s0.headerSize, s0.header) := by
  unfold open_ at h
  cases hr : readHeader file with
  | error e => rw [hr] at h; simp [bind, Except.bind] at h
  | ok p =>
    obtain ⟨n, hd⟩ := p
    rw [hr] at h
    simp [bind, Except.bind, pure, Except.pure] at h
    subst h
    simp

theorem init_inv {file : Bytes} {bs cap : ℕ} {s0 : State} (h : open_ file bs cap = .ok s0) :
    Inv s0 [] ⟨s0, []⟩ [s0.bufStart] := by
  obtain ⟨h1, h2, h3, h4, h5, h6, _⟩ := open_fields h
  constructor <;> try rfl
  · simp [h4]
  · simp [h5]
  · intro i x hx
    simp [State.buffer, h4, h5] at hx
  · intro i v hv; simp at hv

theorem run_append (s : State) (a b : List Op) : run s (a ++ b) = b.foldl step (run s a) := by
  simp [run, List.foldl_append]

theorem run_snoc (s : State) (a : List Op) (op : Op) : run s (a ++ [op]) = step (run s a) op := by
  simp [run_append]

theorem run_inv {file : Bytes} {bs cap : ℕ} {s0 : State} (h : open_ file bs cap = .ok s0)
    (hv : ValidHeader s0.file s0.headerSize s0.header) (hc : CapOk s0) (ops : List Op) :
    ∃ G, Inv s0 ops (run s0 ops) G := by
  induction ops using List.reverseRecOn with
  | nil => exact ⟨_, init_inv h⟩
  | append_singleton l op ih =>
    obtain ⟨G, hG⟩ := ih
    rw [run_snoc]
    exact step_inv hv hc hG op

/-- The byte-wise meaning of a load, for any history of loads and in-place writes. -/
theorem load_bytes {s0 : State} {ops r G} (hI : Inv s0 ops r G)
    (hv : ValidHeader s0.file s0.headerSize s0.header) (hc : CapOk s0)
    {k : Key} {e : Entry} (hk : s0.header.get? k = some (.tensor e)) (hm : k ≠ metadataKey) :
    ∃ s v, getItem r.st k = (s, .ok v) ∧ v.dtype = e.dtype ∧ v.shape = e.shape ∧
      (s.read v).length = e.stop - e.start ∧
      ∀ j, j < e.stop - e.start → (s.read v)[j]? = s0.file[first s0.headerSize e + j]? ∨
        Dirty s0.headerSize s0.header ops (first s0.headerSize e + j) := by
  obtain ⟨s, v, G', h1, h2, h3, h4, h5, h6, h7⟩ := load_spec hI hv hc hk hm
  have hval := hv k e hk
  refine ⟨s, v, h1, h3, h4, ?_, ?_⟩
  · obtain ⟨k', e', q1, q2, q3, q4, q5⟩ := h2.views r.outs.length v (by simp)
    simp only [State.read, length_slice]
    by_cases hp : 0 < v.len
    · obtain ⟨g, g1, g2, g3⟩ := q5 hp
      simp only at g3
      omega
    · omega
  · intro j hj
    have hp : 0 < v.len := by omega
    obtain ⟨k', e', q1, q2, q3, q4, q5⟩ := h2.views r.outs.length v (by simp)
    have hke : k' = k := by
      have : r.outs.length = ops.length := hI.outlen
      rw [this] at q1; simp at q1; exact q1.symm
    subst hke
    rw [hk] at q2; simp at q2; subst q2
    obtain ⟨g, g1, g2, g3⟩ := q5 hp
    have hb := h7 hp
    have hgs : g = s.bufStart := by
      have := h2.gbuf; simp only at this; rw [← hb, g1] at this; simpa using this
    have hin := hval.inside
    have hord := hval.ordered
    simp only [State.read, getElem?_slice]
    rw [if_pos (by omega)]
    have hlt : v.off + j < s.buffer.length := by
      simp only [State.buffer, ← hb]; simp only at g3; omega
    have hx : s.buffer[v.off + j]? = some s.buffer[v.off + j] := List.getElem?_eq_getElem hlt
    have hpos : s.bufStart + (v.off + j) = first s0.headerSize e + j := by omega
    have hrd : (s.heap.getD v.buf [])[v.off + j]? = s.buffer[v.off + j]? := by
      rw [hb]; rfl
    rw [hrd, hx]
    rcases h2.clean (v.off + j) _ hx (by
      simp only [hpos]; simp only [first, last] at *; omega) with h | h
    · left; simp only [hpos] at h; rw [h]
    · simp only [hpos] at h
      obtain ⟨m, i, d, k2, e2, w1, wlt, w2, w3, w4⟩ := h
      right
      have hm : m < ops.length := by
        have := (List.getElem?_eq_some_iff.1 w1).1
        rcases Nat.lt_or_ge m ops.length with h | h
        · exact h
        · have : m = ops.length := by simp at this; omega
          subst this; simp at w1
      refine ⟨m, i, d, k2, e2, ?_, wlt, ?_, w3, w4⟩
      · rwa [List.getElem?_append_left hm] at w1
      · rwa [List.getElem?_append_left (by omega)] at w2

end Verif.StreamIn

namespace Verif.StreamIn
open Spec

theorem ensureBuffer_heap (s : State) (p l : ℕ) : s.heap <+: (ensureBuffer s p l).heap := by
  unfold ensureBuffer
  split
  · exact ⟨_, rfl⟩
  · exact List.prefix_rfl

theorem loadTensor_heap (s : State) (e : Entry) : s.heap <+: (loadTensor s e).1.heap := by
  unfold loadTensor
  simp only
  split_ifs
  · exact List.prefix_rfl
  · exact ⟨_, rfl⟩
  · exact List.prefix_rfl
  all_goals exact ensureBuffer_heap _ _ _

theorem getItem_heap (s : State) (k : Key) : s.heap <+: (getItem s k).1.heap := by
  unfold getItem
  split
  · exact List.prefix_rfl
  · exact List.prefix_rfl
  · split_ifs
    · exact List.prefix_rfl
    · exact loadTensor_heap _ _

theorem read_of_prefix {s s' : State} (h : s.heap <+: s'.heap) (v : View) (hv : v.buf < s.heap.length) :
    s'.read v = s.read v := by
  obtain ⟨t, ht⟩ := h
  simp only [State.read, ← ht, List.getD_eq_getElem?_getD]
  rw [List.getElem?_append_left hv]

/-- Two entries share no file position. -/
def DisjointEntries (hs : ℕ) (e e' : Entry) : Prop := ∀ p, ¬ (Covers hs e p ∧ Covers hs e' p)

theorem slice_overwrite_disjoint (b d : Bytes) (off o l : ℕ) (h : off + d.length ≤ b.length)
    (hd : o + l ≤ off ∨ off + d.length ≤ o) : slice (overwrite b off d) o l = slice b o l := by
  apply List.ext_getElem?
  intro i
  rw [getElem?_slice, getElem?_slice]
  split
  · rw [getElem?_overwrite _ _ _ _ h, if_neg (by omega)]
  · rfl

theorem step_read {s0 : State} {ops r G} (hI : Inv s0 ops r G) {i0 : ℕ} {v : View} {k0 : Key} {e0 : Entry}
    (hv : r.outs[i0]? = some (some (.ok v))) (hk0 : ops[i0]? = some (.load k0))
    (he0 : s0.header.get? k0 = some (.tensor e0)) (op : Op)
    (hop : ∀ i d k e, op = .write i d → ops[i]? = some (.load k) → s0.header.get? k = some (.tensor e) →
      DisjointEntries s0.headerSize e e0) :
    (step r op).st.read v = r.st.read v := by
  obtain ⟨k1, e1, q1, q2, q3, q4, q5⟩ := hI.views i0 v hv
  have hkk : k1 = k0 := by rw [hk0] at q1; simpa using q1.symm
  subst hkk
  have hee : e1 = e0 := by rw [he0] at q2; simpa using q2.symm
  subst hee
  cases op with
  | load k =>
    simp only [step]
    exact read_of_prefix (getItem_heap _ _) v q3
  | write i d =>
    simp only [step]
    split
    · rename_i w hw
      split
      · rename_i hlen
        obtain ⟨k, e, p1, p2, p3, p4, p5⟩ := hI.views i w hw
        have hdis := hop i d k e rfl p1 p2
        simp only [State.read, poke, List.getD_eq_getElem?_getD, List.getElem?_modify]
        by_cases hb : w.buf = v.buf
        · by_cases h0 : 0 < w.len
          · by_cases h1 : 0 < v.len
            · obtain ⟨g, g1, g2, g3⟩ := p5 h0
              obtain ⟨g', g1', g2', g3'⟩ := q5 h1
              have : g = g' := by rw [hb, g1'] at g1; simpa using g1.symm
              subst this
              have hgl : w.off + d.length ≤ (r.st.heap[v.buf]).length := by
                rw [hb] at g3; simp [q3] at g3; omega
              simp only [hb, if_true, q3, List.getElem?_eq_getElem, Option.map_some, Option.getD_some,
                Option.map_eq_map]
              apply slice_overwrite_disjoint _ _ _ _ _ hgl
              by_contra hcon
              push Not at hcon
              clear p5 q5 hop
              have c1 : g + w.off + w.len = last s0.headerSize e := by
                simp only [first, last] at *; omega
              have c2 : g + v.off + v.len = last s0.headerSize e1 := by
                simp only [first, last] at *; omega
              rcases Nat.le_total w.off v.off with hle | hle
              · exact hdis (g + v.off) ⟨⟨by omega, by omega⟩, ⟨by omega, by omega⟩⟩
              · exact hdis (g + w.off) ⟨⟨by omega, by omega⟩, ⟨by omega, by omega⟩⟩
            · have : v.len = 0 := by omega
              simp [this, slice]
          · have hd : d = [] := List.length_eq_zero_iff.1 (by omega)
            subst hd
            cases r.st.heap[v.buf]? <;> simp [overwrite]
        · simp [hb]
      · rfl
    · rfl

/-- Outputs are never changed afterwards. -/
theorem step_outs (r : Run) (op : Op) : r.outs <+: (step r op).outs := by
  cases op with
  | load k => exact ⟨_, rfl⟩
  | write i d =>
    simp only [step]
    split
    · split <;> exact ⟨_, rfl⟩
    · exact ⟨_, rfl⟩

theorem foldl_outs (r : Run) (ops : List Op) : r.outs <+: (ops.foldl step r).outs := by
  induction ops generalizing r with
  | nil => exact List.prefix_rfl
  | cons op ops ih => exact (step_outs r op).trans (ih _)

theorem prefix_getElem? {α : Type} {a b : List α} (h : a <+: b) {i : ℕ} {x : α} (hx : a[i]? = some x) :
    b[i]? = some x := by
  obtain ⟨t, rfl⟩ := h
  rw [List.getElem?_append_left (List.getElem?_eq_some_iff.1 hx).1]; exact hx

theorem run_read_stable {file : Bytes} {bs cap : ℕ} {s0 : State} (h : open_ file bs cap = .ok s0)
    (hv : ValidHeader s0.file s0.headerSize s0.header) (hc : CapOk s0)
    {ops : List Op} {i0 : ℕ} {v : View} {k0 : Key} {e0 : Entry}
    (hout : (run s0 ops).outs[i0]? = some (some (.ok v))) (hk0 : ops[i0]? = some (.load k0))
    (he0 : s0.header.get? k0 = some (.tensor e0)) (ops' : List Op)
    (hop : ∀ (j i : ℕ) d k e, ops'[j]? = some (Op.write i d) → i < ops.length + j →
      (ops ++ ops')[i]? = some (.load k) → s0.header.get? k = some (.tensor e) →
      DisjointEntries s0.headerSize e e0) :
    (run s0 (ops ++ ops')).st.read v = (run s0 ops).st.read v := by
  induction ops' using List.reverseRecOn with
  | nil => simp
  | append_singleton l op ih =>
    have ih' := ih (by
      intro j i d k e hj hi hk hh
      apply hop j i d k e ?_ hi ?_ hh
      · exact prefix_getElem? ⟨_, rfl⟩ hj
      · exact prefix_getElem? ⟨[op], by simp⟩ hk)
    rw [← ih', ← List.append_assoc, run_snoc]
    obtain ⟨G, hG⟩ := run_inv h hv hc (ops ++ l)
    apply step_read hG (i0 := i0) (k0 := k0) (e0 := e0)
    · rw [run_append]; exact prefix_getElem? (foldl_outs _ _) hout
    · exact prefix_getElem? ⟨_, rfl⟩ hk0
    · exact he0
    · intro i d k e hop' hk hh
      subst hop'
      apply hop l.length i d k e (by simp) ?_ ?_ hh
      · have := (List.getElem?_eq_some_iff.1 hk).1; simpa using this
      · exact prefix_getElem? ⟨[.write i d], by simp⟩ hk

/-! Sorting -/

theorem insertBy_perm {α : Type} (f : α → ℕ) (x : α) (l : List α) : (insertBy f x l).Perm (x :: l) := by
  induction l with
  | nil => exact List.Perm.refl _
  | cons y l ih =>
    unfold insertBy
    split
    · exact List.Perm.refl _
    · exact (List.Perm.cons y ih).trans (List.Perm.swap x y l)

theorem sortBy_perm {α : Type} (f : α → ℕ) (l : List α) : (sortBy f l).Perm l := by
  induction l with
  | nil => exact List.Perm.refl _
  | cons x l ih => exact (insertBy_perm f x _).trans (List.Perm.cons x ih)

theorem insertBy_sorted {α : Type} (f : α → ℕ) (x : α) (l : List α)
    (h : l.Pairwise (fun a b => f a ≤ f b)) : (insertBy f x l).Pairwise (fun a b => f a ≤ f b) := by
  induction l with
  | nil => simp [insertBy]
  | cons y l ih =>
    unfold insertBy
    rw [List.pairwise_cons] at h
    split
    · rename_i hxy
      rw [List.pairwise_cons]
      refine ⟨?_, List.pairwise_cons.2 h⟩
      intro z hz
      rcases List.mem_cons.1 hz with rfl | hz
      · exact hxy
      · exact le_trans hxy (h.1 z hz)
    · rename_i hxy
      rw [List.pairwise_cons]
      refine ⟨?_, ih h.2⟩
      intro z hz
      rcases List.mem_cons.1 ((insertBy_perm f x l).mem_iff.1 hz) with rfl | hz
      · omega
      · exact h.1 z hz

theorem sortBy_sorted {α : Type} (f : α → ℕ) (l : List α) : (sortBy f l).Pairwise (fun a b => f a ≤ f b) := by
  induction l with
  | nil => exact List.Pairwise.nil
  | cons x l ih => exact insertBy_sorted f x _ ih

end Verif.StreamIn
