import Verif.Spec.Traffic
import Verif.Proofs.StreamIn

namespace Verif.StreamIn
open Spec

theorem ensureBufferT_state (s : State) (p l : ℕ) : (ensureBufferT s p l).1 = ensureBuffer s p l := by
  unfold ensureBufferT ensureBuffer
  split_ifs <;> rfl

theorem getItemT_state (s : State) (k : Key) : (getItemT s k).1 = (getItem s k).1 := by
  unfold getItemT getItem
  cases h : s.header.get? k with
  | none => rfl
  | some v =>
    cases v with
    | metadata _ => rfl
    | tensor e =>
      dsimp only
      split_ifs
      · rfl
      · unfold loadTensorT loadTensor
        simp only [← ensureBufferT_state]
        split_ifs <;> rfl

/-- Everything that decides about transfers -/
structure Same (s0 s : State) : Prop where
  file : s.file = s0.file
  bs : s.defaultBufferSize = s0.defaultBufferSize
  cap : s.cap = s0.cap
  hs : s.headerSize = s0.headerSize
  header : s.header = s0.header
  buf : s.buf < s.heap.length

theorem ensure_skip {s : State} {p l : ℕ} (h : s.bufStart ≤ p) (h' : p + l ≤ s.bufStart + s.buffer.length) : ensureBufferT s p l = (s, []) := by
  unfold ensureBufferT
  rw [if_neg (by omega)]

theorem ensure_fill {s0 s : State} (hS : Same s0 s) {p l : ℕ} (h : p < s.bufStart ∨ p + l > s.bufStart + s.buffer.length) :
    ∃ s', ensureBufferT s p l = (s', [⟨p, min (min (max s0.defaultBufferSize l) s0.cap) (s0.file.length - p)⟩]) ∧ Same s0 s' ∧ s'.bufStart = p ∧
      s'.buffer.length = max s0.defaultBufferSize l := by
  unfold ensureBufferT
  rw [if_pos h]
  dsimp only
  have hf : (if s.buffer.length < max s.defaultBufferSize l then List.replicate (max s.defaultBufferSize l) (0 : UInt8)
      else s.buffer.take (max s.defaultBufferSize l)).length = max s.defaultBufferSize l := by
    split_ifs with h
    · simp
    · rw [List.length_take]; omega
  generalize (if s.buffer.length < max s.defaultBufferSize l then List.replicate (max s.defaultBufferSize l) (0 : UInt8)
      else s.buffer.take (max s.defaultBufferSize l)) = fresh at hf ⊢
  have hg : (slice s.file p (min fresh.length s.cap)).length = min (min (max s0.defaultBufferSize l) s0.cap) (s0.file.length - p) := by
    rw [length_slice, hf, hS.file, hS.bs, hS.cap]
  generalize slice s.file p (min fresh.length s.cap) = got at hg ⊢
  refine ⟨_, Prod.ext rfl (by rw [hg]), ⟨hS.file, hS.bs, hS.cap, hS.hs, hS.header, by simp⟩, rfl, ?_⟩
  unfold State.buffer
  simp only [List.getD_eq_getElem?_getD, List.getElem?_append_right (Nat.le_refl _), Nat.sub_self, List.getElem?_cons_zero, Option.getD_some,
    List.length_append, List.length_drop, hf, hg, hS.bs]
  omega

/-- Where a tensor lies in the file, if it has any bytes and can be asked for -/
def place (s0 : State) (k : Key) : Option (ℕ × ℕ) :=
  match s0.header.get? k with
  | some (.tensor e) => if k = metadataKey ∨ e.stop ≤ e.start then none else some (8 + s0.headerSize + e.start, e.stop - e.start)
  | _ => none

theorem place_some {s0 : State} {k : Key} {p l : ℕ} (h : place s0 k = some (p, l)) : ∃ e, s0.header.get? k = some (.tensor e) ∧ e.start < e.stop ∧
    p = 8 + s0.headerSize + e.start ∧ l = e.stop - e.start ∧ k ≠ metadataKey := by
  unfold place at h
  split at h
  · rename_i e he
    split_ifs at h with hc
    obtain ⟨rfl, rfl⟩ := Prod.mk.inj (Option.some.inj h)
    exact ⟨e, he, by omega, rfl, rfl, fun h => hc (.inl h)⟩
  · cases h

/-- Asking for a tensor goes through `_ensure_buffer` if the tensor has bytes, else nothing happens to the buffer. -/
theorem item {s0 s : State} (hS : Same s0 s) (k : Key) : match place s0 k with
    | some (p, l) => getItemT s k = ensureBufferT s p l ∧ 0 < l
    | none => ∃ s', getItemT s k = (s', []) ∧ Same s0 s' ∧ s'.bufStart = s.bufStart ∧ s'.buffer = s.buffer := by
  unfold getItemT place
  rw [hS.header]
  cases h : s0.header.get? k with
  | none => exact ⟨s, rfl, hS, rfl, rfl⟩
  | some v =>
    cases v with
    | metadata _ => exact ⟨s, rfl, hS, rfl, rfl⟩
    | tensor e =>
      dsimp only
      by_cases hk : k = metadataKey
      · rw [if_pos hk, if_pos (.inl hk)]
        exact ⟨s, rfl, hS, rfl, rfl⟩
      · rw [if_neg hk]
        unfold loadTensorT
        dsimp only
        by_cases h1 : e.stop < e.start
        · rw [if_pos h1, if_pos (.inr (by omega))]
          exact ⟨s, rfl, hS, rfl, rfl⟩
        · rw [if_neg h1]
          by_cases h2 : e.stop - e.start = 0
          · rw [if_pos h2, if_pos (.inr (by omega))]
            by_cases h3 : numel e.shape = 0
            · rw [if_pos h3]
              refine ⟨_, rfl, ⟨hS.file, hS.bs, hS.cap, hS.hs, hS.header, ?_⟩, rfl, ?_⟩
              · have := hS.buf
                simp only [List.length_append, List.length_singleton]
                omega
              · unfold State.buffer
                simp only [List.getD_eq_getElem?_getD, List.getElem?_append_left hS.buf]
            · rw [if_neg h3]
              exact ⟨s, rfl, hS, rfl, rfl⟩
          · rw [if_neg h2, if_neg (by push Not; exact ⟨hk, by omega⟩), hS.hs]
            exact ⟨rfl, by omega⟩

/-- Tensors lie in order, in terms of their places -/
def InOrder (s0 : State) (ks : List Key) : Prop :=
  ks.Pairwise fun k k' => k = k' ∨ ∀ p l p' l', place s0 k = some (p, l) → place s0 k' = some (p', l') → p + l ≤ p'

theorem inOrder_of {s0 : State} {ks : List Key} (h : Ascending s0.header ks) : InOrder s0 ks := by
  refine List.Pairwise.imp ?_ h
  rintro k k' (h | h)
  · exact .inl h
  · refine .inr fun p l p' l' h1 h2 => ?_
    obtain ⟨e, a1, a2, a3, a4, _⟩ := place_some h1
    obtain ⟨e', b1, b2, b3, b4, _⟩ := place_some h2
    have := h e e' a1 b1 a2 b2
    omega

/-- What is still to be transferred: `b + n` is the end of the buffer, all that is to come and is not in the buffer begins at `m` or later. -/
theorem ascending_cost {s0 : State} {L : ℕ} (hL : L = s0.file.length) : ∀ (ks : List Key) (s : State) (m : ℕ), Same s0 s → InOrder s0 ks →
    (∀ k ∈ ks, ∀ p l, place s0 k = some (p, l) → p + l ≤ L ∧ s.bufStart ≤ p ∧ (m ≤ p ∨ p + l ≤ s.bufStart + s.buffer.length)) → m ≤ L →
    total (transfers s ks) ≤ (L - (s.bufStart + s.buffer.length)) + (L - m) ∧
    (transfers s ks).length * s0.defaultBufferSize ≤ (L - (s.bufStart + s.buffer.length)) + (L - m) + s0.defaultBufferSize
  | [], s, m, _, _, _, _ => by simp [transfers, total]
  | k :: ks, s, m, hS, ho, hp, hm => by
    have ho' := List.pairwise_cons.1 ho
    rw [transfers]
    have hi := item hS k
    cases hk : place s0 k with
    | none =>
      rw [hk] at hi
      obtain ⟨s', e, h1, h2, h3⟩ := hi
      rw [e]
      have := ascending_cost hL ks s' m h1 ho'.2 (fun k' hk' p l h => by rw [h2, h3]; exact hp k' (by simp [hk']) p l h) hm
      rw [h2, h3] at this
      simpa using this
    | some q =>
      obtain ⟨p, l⟩ := q
      rw [hk] at hi
      obtain ⟨e, hl⟩ := hi
      obtain ⟨g1, g2, g3⟩ := hp k (by simp) p l hk
      rw [e]
      by_cases hin : p + l ≤ s.bufStart + s.buffer.length
      · rw [ensure_skip g2 hin]
        have := ascending_cost hL ks s m hS ho'.2 (fun k' hk' p l h => hp k' (by simp [hk']) p l h) hm
        simpa using this
      · obtain ⟨s', e', h1, h2, h3⟩ := ensure_fill hS (p := p) (l := l) (.inr (by omega))
        rw [e']
        have hnext : ∀ k' ∈ ks, ∀ p' l', place s0 k' = some (p', l') → p' + l' ≤ L ∧ s'.bufStart ≤ p' ∧
            (p + l ≤ p' ∨ p' + l' ≤ s'.bufStart + s'.buffer.length) := by
          intro k' hk' p' l' h
          obtain ⟨a1, _, _⟩ := hp k' (by simp [hk']) p' l' h
          rw [h2, h3]
          rcases ho'.1 k' hk' with rfl | ho''
          · rw [hk] at h
            obtain ⟨rfl, rfl⟩ := Prod.mk.inj (Option.some.inj h)
            exact ⟨a1, le_rfl, .inr (by omega)⟩
          · have := ho'' p l p' l' hk h
            exact ⟨a1, by omega, .inl this⟩
        obtain ⟨r1, r2⟩ := ascending_cost hL ks s' (p + l) h1 ho'.2 hnext g1
        rw [h2, h3] at r1 r2
        rcases g3 with g3 | g3
        · constructor
          · have : total ([⟨p, min (min (max s0.defaultBufferSize l) s0.cap) (s0.file.length - p)⟩] ++ transfers s' ks) =
                min (min (max s0.defaultBufferSize l) s0.cap) (s0.file.length - p) + total (transfers s' ks) := by simp [total]
            dsimp only
            rw [this]
            omega
          · by_cases hend : L < p + max s0.defaultBufferSize l
            · have hz : transfers s' ks = [] := by
                have hin' : ∀ k' ∈ ks, ∀ p' l', place s0 k' = some (p', l') → s'.bufStart ≤ p' ∧ p' + l' ≤ s'.bufStart + s'.buffer.length := by
                  intro k' hk' p' l' h
                  obtain ⟨a1, a2, _⟩ := hnext k' hk' p' l' h
                  exact ⟨a2, by rw [h2, h3]; omega⟩
                exact quiet ks s' h1 hin'
              dsimp only
              rw [hz]
              simp
            · dsimp only
              simp only [List.length_append, List.length_singleton, Nat.add_mul, Nat.one_mul]
              omega
        · omega
where
  quiet {s0 : State} : ∀ (ks : List Key) (s : State), Same s0 s →
      (∀ k ∈ ks, ∀ p l, place s0 k = some (p, l) → s.bufStart ≤ p ∧ p + l ≤ s.bufStart + s.buffer.length) → transfers s ks = []
    | [], _, _, _ => rfl
    | k :: ks, s, hS, h => by
      rw [transfers]
      have hi := item hS k
      cases hk : place s0 k with
      | none =>
        rw [hk] at hi
        obtain ⟨s', e, h1, h2, h3⟩ := hi
        rw [e]
        simpa using quiet ks s' h1 (fun k' hk' p l hh => by rw [h2, h3]; exact h k' (by simp [hk']) p l hh)
      | some q =>
        obtain ⟨p, l⟩ := q
        rw [hk] at hi
        obtain ⟨e, hl⟩ := hi
        obtain ⟨g1, g2⟩ := h k (by simp) p l hk
        rw [e, ensure_skip g1 g2]
        simpa using quiet ks s hS (fun k' hk' p l hh => h k' (by simp [hk']) p l hh)

/-- Backwards every tensor costs a transfer. -/
theorem descending_cost {s0 : State} : ∀ (ks : List Key) (s : State), Same s0 s → ks.Nodup →
    ks.Pairwise (fun k k' => ∀ p l p' l', place s0 k = some (p, l) → place s0 k' = some (p', l') → p' + l' ≤ p) →
    (∀ k ∈ ks, ∀ p l, place s0 k = some (p, l) → p < s.bufStart ∨ s.bufStart + s.buffer.length < p + l) →
    transfers s ks = ks.filterMap fun k => (place s0 k).map fun q =>
      ⟨q.1, min (min (max s0.defaultBufferSize q.2) s0.cap) (s0.file.length - q.1)⟩
  | [], _, _, _, _, _ => rfl
  | k :: ks, s, hS, hn, ho, hp => by
    have ho' := List.pairwise_cons.1 ho
    have hn' := (List.nodup_cons.1 hn).2
    rw [transfers, List.filterMap_cons]
    have hi := item hS k
    cases hk : place s0 k with
    | none =>
      rw [hk] at hi
      obtain ⟨s', e, h1, h2, h3⟩ := hi
      rw [e]
      simpa using descending_cost ks s' h1 hn' ho'.2 (fun k' hk' p l h => by rw [h2, h3]; exact hp k' (by simp [hk']) p l h)
    | some q =>
      obtain ⟨p, l⟩ := q
      rw [hk] at hi
      obtain ⟨e, hl⟩ := hi
      obtain ⟨s', e', h1, h2, h3⟩ := ensure_fill hS (p := p) (l := l) (by have := hp k (by simp) p l hk; omega)
      rw [e, e']
      have := descending_cost ks s' h1 hn' ho'.2 (fun k' hk' p' l' h => by
        have a := ho'.1 k' hk' p l p' l' hk h
        have b := item h1 k'
        rw [h] at b
        have := b.2
        rw [h2]
        omega)
      simpa using this

theorem open_same {file : Bytes} {bs cap : ℕ} {s0 : State} (h : open_ file bs cap = .ok s0) :
    Same s0 s0 ∧ s0.bufStart = 8 + s0.headerSize ∧ s0.buffer = [] ∧ s0.file = file ∧ s0.defaultBufferSize = bs ∧ s0.cap = cap := by
  unfold open_ at h
  simp only [Bind.bind, Except.bind] at h
  cases hr : readHeader file with
  | error e => rw [hr] at h; cases h
  | ok q =>
    rw [hr] at h
    cases h
    exact ⟨⟨rfl, rfl, rfl, rfl, rfl, by simp⟩, rfl, rfl, rfl, rfl, rfl⟩

end Verif.StreamIn
