import Verif.Spec.StreamOut
import Mathlib.Data.List.Basic
import Mathlib.Data.List.Perm.Basic
import Mathlib.Data.List.Induction

namespace Verif.StreamOut
open Spec

abbrev Log := List (Key × Tensor)

/-- Concatenated bytes of a log. -/
def bytesOf (l : Log) : Bytes := l.flatMap (·.2.bytes)

/-- The header entries of a log laid out from `off`. -/
def entriesFrom (off : ℕ) : Log → List (Key × Entry)
  | [] => []
  | (k, t) :: l => (k, ⟨t.dtype, t.shape, off, off + t.bytes.length⟩) :: entriesFrom (off + t.bytes.length) l

@[simp] theorem bytesOf_nil : bytesOf [] = [] := rfl
@[simp] theorem bytesOf_append (a b : Log) : bytesOf (a ++ b) = bytesOf a ++ bytesOf b := by simp [bytesOf]
@[simp] theorem bytesOf_cons (p) (b : Log) : bytesOf (p :: b) = p.2.bytes ++ bytesOf b := by simp [bytesOf]

theorem entriesFrom_append (off : ℕ) (a b : Log) :
    entriesFrom off (a ++ b) = entriesFrom off a ++ entriesFrom (off + (bytesOf a).length) b := by
  induction a generalizing off with
  | nil => simp [entriesFrom]
  | cons p a ih =>
    obtain ⟨k, t⟩ := p
    simp [entriesFrom, ih, Nat.add_assoc]

theorem entriesFrom_keys (off : ℕ) (l : Log) : (entriesFrom off l).map (·.1) = l.map (·.1) := by
  induction l generalizing off with
  | nil => rfl
  | cons p l ih => obtain ⟨k, t⟩ := p; simp [entriesFrom, ih]

theorem entriesFrom_shift (off : ℕ) (l : Log) (d : ℕ) :
    (entriesFrom d l).map (fun p => (p.1, shiftEntry off p.2)) = entriesFrom (d + off) l := by
  induction l generalizing d with
  | nil => rfl
  | cons p l ih =>
    obtain ⟨k, t⟩ := p
    have e1 : d + t.bytes.length + off = d + off + t.bytes.length := by omega
    have := ih (d + t.bytes.length)
    rw [e1] at this
    simp only [entriesFrom, List.map_cons, this]
    simp only [shiftEntry, e1]

theorem mem_entriesFrom {off : ℕ} {l : Log} {k : Key} {e : Entry} (h : (k, e) ∈ entriesFrom off l) :
    ∃ A t B, l = A ++ (k, t) :: B ∧
      e = ⟨t.dtype, t.shape, off + (bytesOf A).length, off + (bytesOf A).length + t.bytes.length⟩ := by
  induction l generalizing off with
  | nil => simp [entriesFrom] at h
  | cons p l ih =>
    obtain ⟨k', t⟩ := p
    simp only [entriesFrom, List.mem_cons, Prod.mk.injEq] at h
    rcases h with ⟨rfl, rfl⟩ | h
    · exact ⟨[], t, l, by simp, by simp⟩
    · obtain ⟨A, t', B, h1, h2⟩ := ih h
      refine ⟨(k', t) :: A, t', B, by simp [h1], ?_⟩
      rw [h2]
      simp [Nat.add_assoc]

theorem slice_bytesOf (A B : Log) (k : Key) (t : Tensor) :
    slice (bytesOf (A ++ (k, t) :: B)) (bytesOf A).length t.bytes.length = t.bytes := by
  simp [slice, bytesOf_append]

/-- Ghost state of a thread: what its buffer (or, inside a flush, its sub-header) stands for. -/
structure TInv (minBuf bound : ℕ) (Lg : Log) (ts : TState) (l : Log) : Prop where
  minLe : minBuf ≤ ts.buffer.length
  leBound : ts.buffer.length ≤ max minBuf bound
  sub : ts.sub = Dict.ofList (entriesFrom 0 l)
  buf : (∀ off k t, ts.pc ≠ .flushed off k t) →
    ts.used = (bytesOf l).length ∧ ts.used ≤ ts.buffer.length ∧ ts.buffer.take ts.used = bytesOf l
  fl : ∀ off k t, ts.pc = .flushed off k t → ts.used = 0 ∧ t.bytes.length ≤ bound ∧
    ∃ A B, Lg = A ++ l ++ B ∧ (bytesOf A).length = off
  wl : ∀ k t, ts.pc = .waitLock k t → t.bytes.length ≤ bound

/-- Stored but not yet flushed tensors of a thread. -/
def localOf (ts : TState) (l : Log) : Log :=
  match ts.pc with
  | .idle => l
  | .waitLock k t => l ++ [(k, t)]
  | .flushed _ k t => [(k, t)]

structure Inv (s0 : State) (bound : ℕ) (hist : Log) (s : State) (Lg : Log) (loc : ℕ → Log) : Prop where
  minBuf : s.minBuf = s0.minBuf
  maxHeader : s.maxHeader = s0.maxHeader
  cap : s.cap = s0.cap
  tnd : s.threads.keys.Nodup
  thr : ∀ tid ts, s.threads.get? tid = some ts → TInv s0.minBuf bound Lg ts (loc tid)
  perm : hist.Perm (Lg ++ s.threads.flatMap fun p => localOf p.2 (loc p.1))
  flushed : s.flushedSize = (bytesOf Lg).length
  pos : s.file.pos = 8 + s0.maxHeader + (bytesOf Lg).length
  content : s.file.content = if bytesOf Lg = [] then [] else List.replicate (8 + s0.maxHeader) 0 ++ bytesOf Lg
  hnd : s.header.keys.Nodup
  hmem : ∀ k v, (k, v) ∈ s.header → (k, v) ∈ s0.header ∨ ∃ e, v = .tensor e ∧ (k, e) ∈ entriesFrom 0 Lg
  hold : ∀ k, k ∈ s0.header.keys → k ∈ s.header.keys
  hcov : ∀ k ∈ Lg.map (·.1), k ∈ s.header.keys ∨
    ∃ tid ts off k' t', s.threads.get? tid = some ts ∧ ts.pc = .flushed off k' t' ∧ k ∈ (loc tid).map (·.1)
  /-- the value stored for a key that is not in the log is the original one -/
  hkeep : ∀ k, k ∉ Lg.map (·.1) → s.header.get? k = s0.header.get? k

theorem store_spec {minBuf bound : ℕ} {Lg : Log} {ts : TState} {l : Log} (k : Key) (t : Tensor)
    (h1 : minBuf ≤ ts.buffer.length) (h2 : ts.buffer.length ≤ max minBuf bound)
    (hs : ts.sub = Dict.ofList (entriesFrom 0 l)) (hu : ts.used = (bytesOf l).length)
    (hb : ts.buffer.take ts.used = bytesOf l)
    (hf : ts.used + t.bytes.length ≤ ts.buffer.length) :
    TInv minBuf bound Lg (store ts k t) (l ++ [(k, t)]) := by
  have hlen : (store ts k t).buffer.length = ts.buffer.length := by
    simp [store]; omega
  constructor
  · rw [hlen]; exact h1
  · rw [hlen]; exact h2
  · rw [entriesFrom_append]
    simp only [entriesFrom, store, Nat.zero_add]
    rw [Dict.ofList_append_singleton, hs, hu]
  · intro _
    refine ⟨by simp [store, hu], ?_, ?_⟩
    · rw [hlen]; simp [store]; exact hf
    · simp only [store, hb, bytesOf_append, bytesOf_cons, bytesOf_nil, List.append_nil]
      rw [List.take_append_of_le_length (by simp; omega)]
      rw [List.take_of_length_le (by simp; omega)]
  · intro off k t h; simp [store] at h
  · intro k t h; simp [store] at h

theorem flatMap_set {α : Type} {d : Dict ℕ TState} (hd : d.keys.Nodup) (tid : ℕ) (ts : TState)
    (f g : ℕ × TState → List α) (hfg : ∀ p, p.1 ≠ tid → g p = f p) :
    (d.flatMap f).Perm ((match d.get? tid with | some old => f (tid, old) | none => []) ++ (d.erase tid).flatMap f) ∧
    ((d.set tid ts).flatMap g).Perm (g (tid, ts) ++ (d.erase tid).flatMap f) := by
  constructor
  · cases h : d.get? tid with
    | none =>
      rw [Dict.get?_eq_none_iff] at h
      rw [Dict.erase_of_not_mem d tid h]; simp
    | some old =>
      have := (Dict.perm_erase hd h).flatMap_right f
      simpa using this
  · have h := (Dict.perm_erase (Dict.nodup_set hd tid ts) (Dict.get?_set_self d tid ts)).flatMap_right g
    rw [Dict.erase_set] at h
    simp only [List.flatMap_cons] at h
    have hc : (d.erase tid).flatMap g = (d.erase tid).flatMap f := by
      apply List.flatMap_congr
      intro p hp
      apply hfg
      simp [Dict.erase] at hp
      exact hp.2
    rw [hc] at h
    exact h

theorem TInv.mono {minBuf b b' : ℕ} (hb : b ≤ b') {Lg ts l} (h : TInv minBuf b Lg ts l) (C : Log) :
    TInv minBuf b' (Lg ++ C) ts l := by
  refine ⟨h.minLe, ?_, h.sub, h.buf, ?_, ?_⟩
  · have := h.leBound; omega
  · intro off k t hp
    obtain ⟨h1, h2, A, B, h3, h4⟩ := h.fl off k t hp
    exact ⟨h1, by omega, A, B ++ C, by simp [h3], h4⟩
  · intro k t hp
    have := h.wl k t hp
    omega

theorem resized_length (m : ℕ) (b : Bytes) (n : ℕ) : (resized m b n).length = max m n := by
  unfold resized
  simp only
  split
  · simp
  · simp; omega

theorem writeAt_end (m : ℕ) (D d : Bytes) :
    writeAt (if D = [] then [] else List.replicate m 0 ++ D) (m + D.length) d =
      if D ++ d = [] then [] else List.replicate m 0 ++ (D ++ d) := by
  unfold writeAt
  by_cases hd : d = []
  · subst hd; simp
  · rw [if_neg hd]
    have : D ++ d ≠ [] := by simp [hd]
    rw [if_neg this]
    by_cases hD : D = []
    · subst hD; simp
    · rw [if_neg hD]
      have h1 : (List.replicate m (0 : UInt8) ++ D).length = m + D.length := by simp
      rw [List.take_of_length_le (by omega), h1, Nat.sub_self, List.drop_of_length_le (by omega)]
      simp

theorem rawWrite_spec (cap : ℕ) (f : File) (d : Bytes) (h : d.length ≤ cap) :
    rawWrite cap f d = ⟨writeAt f.content f.pos d, f.pos + d.length⟩ := by
  simp [rawWrite, List.take_of_length_le h]

theorem localOf_idle {ts : TState} (h : ts.pc = .idle) (l : Log) : localOf ts l = l := by simp [localOf, h]

/-- A `begin` action. -/
theorem begin_inv {s0 : State} {bound : ℕ} {hist : Log} {s s' : State} {Lg : Log} {loc : ℕ → Log}
    (hI : Inv s0 bound hist s Lg loc) (tid : ℕ) (k : Key) (t : Tensor) (ht : t.bytes.length ≤ bound)
    (hstep : step s (.begin tid k t) = some s') :
    ∃ loc', Inv s0 bound (hist ++ [(k, t)]) s' Lg loc' := by
  simp only [step] at hstep
  set ts : TState := (s.threads.get? tid).getD ⟨List.replicate s.minBuf 0, 0, [], .idle⟩ with hts
  -- the ghost log of the thread
  set l : Log := if (s.threads.get? tid).isSome then loc tid else [] with hl
  split at hstep
  swap
  · cases hstep
  rename_i hpc
  have hT : TInv s0.minBuf bound Lg ts l := by
    cases hg : s.threads.get? tid with
    | some old =>
      have h1 : ts = old := by rw [hts, hg]; rfl
      have h2 : l = loc tid := by rw [hl, hg]; rfl
      rw [h1, h2]; exact hI.thr tid old hg
    | none =>
      have h1 : ts = ⟨List.replicate s.minBuf 0, 0, [], .idle⟩ := by rw [hts, hg]; rfl
      have h2 : l = [] := by rw [hl, hg]; rfl
      rw [h1, h2, hI.minBuf]
      constructor <;> simp [entriesFrom, Dict.ofList]
  have hloc : localOf ts l = (match s.threads.get? tid with | some old => localOf old (loc tid) | none => []) := by
    cases hg : s.threads.get? tid with
    | some old =>
      have h1 : ts = old := by rw [hts, hg]; rfl
      have h2 : l = loc tid := by rw [hl, hg]; rfl
      simp [h1, h2]
    | none =>
      have h2 : l = [] := by rw [hl, hg]; rfl
      simp [localOf, hpc, h2]
  obtain ⟨hb1, hb2, hb3⟩ := hT.buf (by intro off k t h; rw [hpc] at h; cases h)
  -- common part for a new thread state `ts'` with ghost log `l'`
  have key : ∀ (ts' : TState) (l' : Log), TInv s0.minBuf bound Lg ts' l' →
      localOf ts' l' = l ++ [(k, t)] → (∀ off k t, ts'.pc ≠ .flushed off k t) →
      Inv s0 bound (hist ++ [(k, t)]) { s with threads := s.threads.set tid ts' } Lg (Function.update loc tid l') := by
    intro ts' l' hT' hl' hpc'
    constructor
    · exact hI.minBuf
    · exact hI.maxHeader
    · exact hI.cap
    · exact Dict.nodup_set hI.tnd _ _
    · intro tid' ts'' hg
      rw [Dict.get?_set] at hg
      by_cases h : tid = tid'
      · subst h
        simp only [if_true, Option.some.injEq] at hg
        subst hg
        simpa using hT'
      · rw [if_neg h] at hg
        rw [Function.update_of_ne (Ne.symm h)]
        exact hI.thr tid' ts'' hg
    · obtain ⟨p1, p2⟩ := flatMap_set hI.tnd tid ts' (fun p => localOf p.2 (loc p.1))
        (fun p => localOf p.2 (Function.update loc tid l' p.1)) (by
          intro p hp; simp only [Function.update_of_ne hp])
      simp only [Function.update_self] at p2
      rw [← hloc, localOf_idle hpc] at p1
      rw [hl'] at p2
      have q1 := (hI.perm.append_right [(k, t)]).trans
        ((p1.append_left Lg).append_right [(k, t)])
      refine q1.trans (List.Perm.trans ?_ (p2.append_left Lg).symm)
      simp only [List.append_assoc]
      apply List.Perm.append_left
      apply List.Perm.append_left
      exact List.perm_append_comm
    · exact hI.flushed
    · exact hI.pos
    · exact hI.content
    · exact hI.hnd
    · exact hI.hmem
    · exact hI.hold
    · intro k' hk'
      rcases hI.hcov k' hk' with h | ⟨tid', ts'', off, k2, t2, h1, h2, h3⟩
      · exact Or.inl h
      · right
        have hne : tid ≠ tid' := by
          rintro rfl
          have : ts = ts'' := by rw [hts, h1]; rfl
          rw [← this, hpc] at h2; cases h2
        refine ⟨tid', ts'', off, k2, t2, ?_, h2, ?_⟩
        · simp only; rw [Dict.get?_set_ne _ _ hne]; exact h1
        · rw [Function.update_of_ne (Ne.symm hne)]; exact h3
    · exact hI.hkeep
  simp only [Option.some.injEq] at hstep
  subst hstep
  split
  · -- flush needed
    refine ⟨_, key _ l ?_ (by simp [localOf]) (by simp)⟩
    refine ⟨hT.minLe, hT.leBound, hT.sub, fun _ => ⟨hb1, hb2, hb3⟩, by simp, ?_⟩
    intro k' t' h
    simp at h
    rw [← h.2]; exact ht
  · rename_i hfit
    refine ⟨_, key _ (l ++ [(k, t)]) (store_spec k t hT.minLe hT.leBound hT.sub hb1 hb3 (by omega)) ?_ (by simp [store])⟩
    simp [localOf, store]

/-- The locked part of a flush. -/
theorem locked_inv {s0 : State} {bound : ℕ} {hist : Log} {s s' : State} {Lg : Log} {loc : ℕ → Log}
    (hI : Inv s0 bound hist s Lg loc) (hcap : max s0.minBuf bound ≤ s0.cap) (tid : ℕ)
    (hstep : step s (.locked tid) = some s') :
    ∃ Lg', Inv s0 bound hist s' Lg' loc := by
  simp only [step] at hstep
  cases hg : s.threads.get? tid with
  | none => rw [hg] at hstep; cases hstep
  | some ts =>
    rw [hg] at hstep
    simp only at hstep
    split at hstep
    swap
    · cases hstep
    rename_i k t hpc
    simp only [Option.some.injEq] at hstep
    subst hstep
    have hT := hI.thr tid ts hg
    obtain ⟨hb1, hb2, hb3⟩ := hT.buf (by intro off k t h; rw [hpc] at h; cases h)
    refine ⟨Lg ++ loc tid, ?_⟩
    have hlen : (ts.buffer.take ts.used).length ≤ s.cap := by
      rw [hI.cap]
      have := hT.leBound
      simp; omega
    constructor
    · exact hI.minBuf
    · exact hI.maxHeader
    · exact hI.cap
    · exact Dict.nodup_set hI.tnd _ _
    · intro tid' ts'' hg'
      rw [Dict.get?_set] at hg'
      by_cases h : tid = tid'
      · subst h
        simp only [if_true, Option.some.injEq] at hg'
        subst hg'
        refine ⟨hT.minLe, hT.leBound, hT.sub, ?_, ?_, by simp⟩
        · intro h; exact absurd rfl (h _ _ _)
        · intro off k' t' h
          simp only [PC.flushed.injEq] at h
          obtain ⟨h1, h2, h3⟩ := h
          exact ⟨rfl, by rw [← h3]; exact hT.wl k t hpc, Lg, [], by simp, by rw [← h1, hI.flushed]⟩
      · rw [if_neg h] at hg'
        exact (hI.thr tid' ts'' hg').mono (le_refl _) _
    · obtain ⟨p1, p2⟩ := flatMap_set hI.tnd tid { ts with used := 0, pc := .flushed s.flushedSize k t }
        (fun p => localOf p.2 (loc p.1)) (fun p => localOf p.2 (loc p.1)) (by intros; rfl)
      rw [hg] at p1
      simp only [localOf, hpc] at p1
      have e : localOf { ts with used := 0, pc := PC.flushed s.flushedSize k t } (loc tid) = [(k, t)] := rfl
      simp only [e] at p2
      refine hI.perm.trans ((p1.append_left Lg).trans ?_)
      refine List.Perm.trans ?_ (p2.append_left _).symm
      simp only [List.append_assoc]
      exact List.Perm.refl _
    · simp [hI.flushed, hb1]
    · simp only [rawWrite_spec _ _ _ hlen]
      simp only [hI.pos, hb3, bytesOf_append, List.length_append]; omega
    · simp only [rawWrite_spec _ _ _ hlen]
      simp only [hI.pos, hI.content, hb3]
      rw [writeAt_end, bytesOf_append]
    · exact hI.hnd
    · intro k' v hv
      rcases hI.hmem k' v hv with h | ⟨e, h1, h2⟩
      · exact Or.inl h
      · refine Or.inr ⟨e, h1, ?_⟩
        rw [entriesFrom_append]; simp [h2]
    · exact hI.hold
    · intro k' hk'
      simp only [List.map_append, List.mem_append] at hk'
      rcases hk' with hk' | hk'
      · rcases hI.hcov k' hk' with h | ⟨tid', ts'', off, k2, t2, h1, h2, h3⟩
        · exact Or.inl h
        · right
          have hne : tid ≠ tid' := by
            rintro rfl
            rw [hg] at h1
            simp at h1; subst h1
            rw [hpc] at h2; cases h2
          refine ⟨tid', ts'', off, k2, t2, ?_, h2, h3⟩
          simp only; rw [Dict.get?_set_ne _ _ hne]; exact h1
      · right
        exact ⟨tid, _, s.flushedSize, k, t, Dict.get?_set_self _ _ _, rfl, hk'⟩
    · intro k' hk'
      exact hI.hkeep k' (fun h => hk' (by simp only [List.map_append, List.mem_append]; exact Or.inl h))

theorem mem_globalSub {off : ℕ} {l : Log} {k : Key} {v : HVal}
    (h : (k, v) ∈ globalSub off (Dict.ofList (entriesFrom 0 l))) :
    ∃ e, v = .tensor e ∧ (k, e) ∈ entriesFrom off l := by
  unfold globalSub at h
  obtain ⟨p, hp, he⟩ := List.mem_map.1 h
  simp only [Prod.mk.injEq] at he
  obtain ⟨rfl, rfl⟩ := he
  refine ⟨_, rfl, ?_⟩
  have h1 := Dict.mem_ofList hp
  have h2 := entriesFrom_shift off l 0
  rw [Nat.zero_add] at h2
  rw [← h2]
  exact List.mem_map.2 ⟨p, h1, rfl⟩

theorem globalSub_keys (off : ℕ) (sub : Dict Key Entry) : Dict.keys (globalSub off sub) = sub.keys := by
  simp [globalSub, Dict.keys, Function.comp_def]

/-- Header bookkeeping shared by `finish` and `close`. -/
theorem update_header {H H0 : Header} {Lg : Log} {l A B : Log} {off : ℕ}
    (hnd : H.keys.Nodup) (hLg : Lg = A ++ l ++ B) (hoff : (bytesOf A).length = off)
    (hmem : ∀ k v, (k, v) ∈ H → (k, v) ∈ H0 ∨ ∃ e, v = .tensor e ∧ (k, e) ∈ entriesFrom 0 Lg)
    (hkeep : ∀ k, k ∉ Lg.map (·.1) → H.get? k = H0.get? k) :
    let H' := H.update (globalSub off (Dict.ofList (entriesFrom 0 l)))
    H'.keys.Nodup ∧
    (∀ k v, (k, v) ∈ H' → (k, v) ∈ H0 ∨ ∃ e, v = .tensor e ∧ (k, e) ∈ entriesFrom 0 Lg) ∧
    (∀ k, k ∈ H'.keys ↔ k ∈ H.keys ∨ k ∈ l.map (·.1)) ∧
    (∀ k, k ∉ Lg.map (·.1) → H'.get? k = H0.get? k) := by
  intro H'
  refine ⟨Dict.nodup_update hnd _, ?_, ?_, ?_⟩
  · intro k v hv
    rcases Dict.mem_update hv with h | h
    · obtain ⟨e, h1, h2⟩ := mem_globalSub h
      refine Or.inr ⟨e, h1, ?_⟩
      rw [hLg, entriesFrom_append, entriesFrom_append, Nat.zero_add, hoff]
      simp [h2]
    · exact hmem k v h
  · intro k
    show k ∈ (H.update _).keys ↔ _
    rw [Dict.mem_keys_update, globalSub_keys, Dict.mem_keys_ofList, entriesFrom_keys]
  · intro k hk
    have hk2 : k ∉ l.map (·.1) := by
      intro h; apply hk; rw [hLg]; simp only [List.map_append, List.mem_append]; tauto
    show (H.update _).get? k = _
    rw [Dict.get?_update _ (by rw [globalSub_keys]; exact Dict.nodup_ofList _)]
    have : Dict.get? (globalSub off (Dict.ofList (entriesFrom 0 l))) k = none := by
      rw [Dict.get?_eq_none_iff, globalSub_keys, Dict.mem_keys_ofList, entriesFrom_keys]; exact hk2
    rw [this, Option.none_or]
    exact hkeep k hk

/-- The rest of a flush and of the store. -/
theorem finish_inv {s0 : State} {bound : ℕ} {hist : Log} {s s' : State} {Lg : Log} {loc : ℕ → Log}
    (hI : Inv s0 bound hist s Lg loc) (tid : ℕ)
    (hstep : step s (.finish tid) = some s') :
    ∃ loc', Inv s0 bound hist s' Lg loc' := by
  simp only [step] at hstep
  cases hg : s.threads.get? tid with
  | none => rw [hg] at hstep; cases hstep
  | some ts =>
    rw [hg] at hstep
    simp only at hstep
    split at hstep
    swap
    · cases hstep
    rename_i off k t hpc
    simp only [Option.some.injEq] at hstep
    subst hstep
    have hT := hI.thr tid ts hg
    obtain ⟨hu, htb, A, B, hLg, hoff⟩ := hT.fl off k t hpc
    have hT' : TInv s0.minBuf bound Lg
        (store { ts with buffer := resized s.minBuf ts.buffer t.bytes.length, sub := [] } k t) ([] ++ [(k, t)]) := by
      apply store_spec
      · simp only [resized_length, hI.minBuf]; omega
      · simp only [resized_length, hI.minBuf]; omega
      · simp [entriesFrom, Dict.ofList]
      · simp [hu]
      · simp [hu]
      · simp only [resized_length, hu]; omega
    obtain ⟨u1, u2, u3, u4⟩ := update_header hI.hnd hLg hoff hI.hmem hI.hkeep
    rw [← hT.sub] at u1 u2 u3 u4
    refine ⟨Function.update loc tid [(k, t)], ?_⟩
    constructor
    · exact hI.minBuf
    · exact hI.maxHeader
    · exact hI.cap
    · exact Dict.nodup_set hI.tnd _ _
    · intro tid' ts'' hg'
      rw [Dict.get?_set] at hg'
      by_cases h : tid = tid'
      · subst h
        simp only [if_true, Option.some.injEq] at hg'
        subst hg'
        simpa using hT'
      · rw [if_neg h] at hg'
        rw [Function.update_of_ne (Ne.symm h)]
        exact hI.thr tid' ts'' hg'
    · obtain ⟨p1, p2⟩ := flatMap_set hI.tnd tid
        (store { ts with buffer := resized s.minBuf ts.buffer t.bytes.length, sub := [] } k t)
        (fun p => localOf p.2 (loc p.1)) (fun p => localOf p.2 (Function.update loc tid [(k, t)] p.1)) (by
          intro p hp; simp only [Function.update_of_ne hp])
      rw [hg] at p1
      simp only [localOf, hpc] at p1
      simp only [Function.update_self] at p2
      have e : localOf (store { ts with buffer := resized s.minBuf ts.buffer t.bytes.length, sub := [] } k t) [(k, t)]
        = [(k, t)] := rfl
      simp only [e] at p2
      exact hI.perm.trans ((p1.trans p2.symm).append_left Lg)
    · exact hI.flushed
    · exact hI.pos
    · exact hI.content
    · exact u1
    · exact u2
    · intro k' hk'; exact (u3 k').2 (Or.inl (hI.hold k' hk'))
    · intro k' hk'
      rcases hI.hcov k' hk' with h | ⟨tid', ts'', off', k2, t2, h1, h2, h3⟩
      · exact Or.inl ((u3 k').2 (Or.inl h))
      · by_cases hne : tid = tid'
        · subst hne
          exact Or.inl ((u3 k').2 (Or.inr h3))
        · right
          refine ⟨tid', ts'', off', k2, t2, ?_, h2, ?_⟩
          · simp only; rw [Dict.get?_set_ne _ _ hne]; exact h1
          · rw [Function.update_of_ne (Ne.symm hne)]; exact h3
    · exact u4

theorem run_inv {s0 : State} {bound : ℕ} (hcap : max s0.minBuf bound ≤ s0.cap) (as : List Action)
    (hb : ∀ p ∈ stored as, p.2.bytes.length ≤ bound)
    {hist : Log} {s s' : State} {Lg : Log} {loc : ℕ → Log}
    (hI : Inv s0 bound hist s Lg loc) (hrun : run s as = some s') :
    ∃ Lg' loc', Inv s0 bound (hist ++ stored as) s' Lg' loc' := by
  induction as generalizing hist s Lg loc with
  | nil => simp [run] at hrun; subst hrun; simp only [stored, List.append_nil]; exact ⟨Lg, loc, hI⟩
  | cons a as ih =>
    simp only [run] at hrun
    cases hs : step s a with
    | none => rw [hs] at hrun; cases hrun
    | some s1 =>
      rw [hs] at hrun
      simp only [Option.bind_some] at hrun
      cases a with
      | begin tid k t =>
        obtain ⟨loc', h'⟩ := begin_inv hI tid k t (hb (k, t) (by simp [stored])) hs
        have := ih (fun p hp => hb p (by simp [stored, hp])) h' hrun
        simpa [stored] using this
      | locked tid =>
        obtain ⟨Lg', h'⟩ := locked_inv hI hcap tid hs
        simpa [stored] using ih (fun p hp => hb p (by simpa [stored] using hp)) h' hrun
      | finish tid =>
        obtain ⟨loc', h'⟩ := finish_inv hI tid hs
        simpa [stored] using ih (fun p hp => hb p (by simpa [stored] using hp)) h' hrun

theorem init_inv (declared : Dict Key Meta) (recipe : Option (List Char)) (minBuf cap bound : ℕ) :
    Inv (init declared recipe minBuf cap) bound [] (init declared recipe minBuf cap) [] (fun _ => []) := by
  constructor <;> try rfl
  · simp [init, Dict.keys]
  · intro tid ts h; simp [init] at h
  · simp [init, initHeader, Dict.keys]
  · intro k v h; exact Or.inl h
  · intro k h; exact h
  · intro k h; simp at h
  · intro k _; rfl

end Verif.StreamOut

namespace Verif.StreamOut
open Spec

/-- The shared part of the state when no thread is flushing: everything is in terms of the log. -/
structure Flat (s0 : State) (s : State) (Lg : Log) : Prop where
  minBuf : s.minBuf = s0.minBuf
  maxHeader : s.maxHeader = s0.maxHeader
  cap : s.cap = s0.cap
  flushed : s.flushedSize = (bytesOf Lg).length
  pos : s.file.pos = 8 + s0.maxHeader + (bytesOf Lg).length
  content : s.file.content = if bytesOf Lg = [] then [] else List.replicate (8 + s0.maxHeader) 0 ++ bytesOf Lg
  hnd : s.header.keys.Nodup
  hmem : ∀ k v, (k, v) ∈ s.header → (k, v) ∈ s0.header ∨ ∃ e, v = .tensor e ∧ (k, e) ∈ entriesFrom 0 Lg
  hold : ∀ k, k ∈ s0.header.keys → k ∈ s.header.keys
  hcov : ∀ k ∈ Lg.map (·.1), k ∈ s.header.keys
  hkeep : ∀ k, k ∉ Lg.map (·.1) → s.header.get? k = s0.header.get? k

theorem Inv.flat {s0 bound hist s Lg loc} (hI : Inv s0 bound hist s Lg loc) (hq : Quiescent s) : Flat s0 s Lg := by
  refine ⟨hI.minBuf, hI.maxHeader, hI.cap, hI.flushed, hI.pos, hI.content, hI.hnd, hI.hmem, hI.hold, ?_, hI.hkeep⟩
  intro k hk
  rcases hI.hcov k hk with h | ⟨tid, ts, off, k', t', h1, h2, h3⟩
  · exact h
  · have := hq (tid, ts) (Dict.mem_of_get? h1)
    simp only at this
    rw [this] at h2; cases h2

theorem flushClose_flat {s0 s : State} {Lg l : Log} {ts : TState} (hF : Flat s0 s Lg)
    (hu : ts.used = (bytesOf l).length) (hb : ts.buffer.take ts.used = bytesOf l)
    (hsub : ts.sub = Dict.ofList (entriesFrom 0 l)) (hcap : (ts.buffer.take ts.used).length ≤ s0.cap) :
    Flat s0 (flushClose s ts) (Lg ++ l) := by
  have hlen : (ts.buffer.take ts.used).length ≤ s.cap := by rw [hF.cap]; exact hcap
  obtain ⟨u1, u2, u3, u4⟩ := update_header (H := s.header) (H0 := s0.header) (Lg := Lg ++ l) (l := l) (A := Lg) (B := [])
    (off := (bytesOf Lg).length) hF.hnd (by simp) rfl
    (by
      intro k v hv
      rcases hF.hmem k v hv with h | ⟨e, h1, h2⟩
      · exact Or.inl h
      · refine Or.inr ⟨e, h1, ?_⟩
        rw [entriesFrom_append]; simp [h2])
    (by
      intro k hk
      exact hF.hkeep k (fun h => hk (by simp only [List.map_append, List.mem_append]; exact Or.inl h)))
  rw [← hsub, ← hF.flushed] at u1 u2 u3 u4
  constructor
  · exact hF.minBuf
  · exact hF.maxHeader
  · exact hF.cap
  · simp [flushClose, hF.flushed, hu]
  · simp only [flushClose, rawWrite_spec _ _ _ hlen]
    simp only [hF.pos, hb, bytesOf_append, List.length_append]; omega
  · simp only [flushClose, rawWrite_spec _ _ _ hlen]
    simp only [hF.pos, hF.content, hb]
    rw [writeAt_end, bytesOf_append]
  · exact u1
  · exact u2
  · intro k hk; exact (u3 k).2 (Or.inl (hF.hold k hk))
  · intro k hk
    simp only [List.map_append, List.mem_append] at hk
    rcases hk with hk | hk
    · exact (u3 k).2 (Or.inl (hF.hcov k hk))
    · exact (u3 k).2 (Or.inr hk)
  · exact u4

theorem closeFold_flat {s0 : State} {bound : ℕ} (hcap : max s0.minBuf bound ≤ s0.cap)
    (loc : ℕ → Log) (Lg0 : Log) (th : List (ℕ × TState))
    (hT : ∀ p ∈ th, TInv s0.minBuf bound Lg0 p.2 (loc p.1) ∧ p.2.pc = .idle)
    {s : State} {Lg : Log} (hF : Flat s0 s Lg) :
    Flat s0 ((th.map (·.2)).foldl flushClose s) (Lg ++ th.flatMap fun p => localOf p.2 (loc p.1)) := by
  induction th generalizing s Lg with
  | nil => simpa using hF
  | cons p th ih =>
    obtain ⟨hT1, hidle⟩ := hT p (by simp)
    obtain ⟨hb1, hb2, hb3⟩ := hT1.buf (by intro off k t h; rw [hidle] at h; cases h)
    have hc : (p.2.buffer.take p.2.used).length ≤ s0.cap := by
      have := hT1.leBound
      simp; omega
    have h1 := flushClose_flat hF hb1 hb3 hT1.sub hc
    have h2 := ih (fun q hq => hT q (by simp [hq])) h1
    simp only [List.map_cons, List.foldl_cons, List.flatMap_cons]
    rw [localOf_idle hidle, ← List.append_assoc]
    exact h2

/-- After the flushes of `close`, the log is a permutation of everything stored. -/
theorem close_flat {s0 : State} {bound : ℕ} {hist : Log} {s : State} {Lg : Log} {loc : ℕ → Log}
    (hI : Inv s0 bound hist s Lg loc) (hq : Quiescent s) (hcap : max s0.minBuf bound ≤ s0.cap) :
    ∃ Lg', hist.Perm Lg' ∧ Flat s0 ((s.threads.map (·.2)).foldl flushClose s) Lg' := by
  refine ⟨_, hI.perm, closeFold_flat hcap loc Lg s.threads ?_ (hI.flat hq)⟩
  intro p hp
  exact ⟨hI.thr p.1 p.2 ((Dict.get?_eq_some_iff hI.tnd).2 hp), hq p hp⟩

/-! Writing the header -/

theorem writeAt_mid (X Y Z d : Bytes) (h : Y.length = d.length ∨ (Y = [] ∧ Z = [])) :
    writeAt (X ++ Y ++ Z) X.length d = X ++ d ++ Z := by
  unfold writeAt
  by_cases hd : d = []
  · subst hd
    have : Y = [] := by
      rcases h with h | h
      · exact List.length_eq_zero_iff.1 (by simpa using h)
      · exact h.1
    simp [this]
  · rw [if_neg hd]
    rcases h with h | ⟨rfl, rfl⟩
    · have e1 : (X ++ Y ++ Z).take X.length = X := by simp [List.append_assoc]
      have e2 : X.length - (X ++ Y ++ Z).length = 0 := by simp only [List.length_append]; omega
      have e3 : (X ++ Y ++ Z).drop (X.length + d.length) = Z := by
        rw [← h, List.append_assoc, ← List.drop_drop]
        simp
      rw [e1, e2, e3]; simp
    · simp

theorem getElem?_writeAt (c d : Bytes) (p i : ℕ) (h : p + d.length ≤ c.length) :
    (writeAt c p d)[i]? = if p ≤ i ∧ i < p + d.length then d[i - p]? else c[i]? := by
  unfold writeAt
  by_cases hd : d = []
  · subst hd
    rw [if_pos rfl, if_neg (by simp only [List.length_nil]; omega)]
  · rw [if_neg hd]
    have e2 : p - c.length = 0 := by omega
    rw [e2]
    simp only [List.replicate_zero, List.append_nil]
    have hl : (c.take p).length = p := by simp; omega
    rcases Nat.lt_or_ge i p with h1 | h1
    · rw [if_neg (by omega), List.append_assoc, List.getElem?_append_left (by omega), List.getElem?_take]
      simp [h1]
    · rw [List.append_assoc, List.getElem?_append_right (by omega), hl]
      rcases Nat.lt_or_ge i (p + d.length) with h2 | h2
      · rw [if_pos ⟨h1, h2⟩, List.getElem?_append_left (by omega)]
      · rw [if_neg (by omega), List.getElem?_append_right (by omega), List.getElem?_drop]
        congr 1; omega

theorem length_writeAt (c d : Bytes) (p : ℕ) (h : p + d.length ≤ c.length) : (writeAt c p d).length = c.length := by
  unfold writeAt
  by_cases hd : d = []
  · simp [hd]
  · rw [if_neg hd]; simp; omega

theorem moveLoop_spec (m off ds : ℕ) (hm : 0 < m) (D : Bytes) (ce : ℕ) (c : Bytes)
    (hlen : c.length = ds + off + D.length) (hce : ce ≤ ds + D.length)
    (h1 : ∀ i, ds + i < ce → c[ds + i]? = D[i]?)
    (h2 : ∀ i, ce ≤ ds + i → c[ds + off + i]? = D[i]?) :
    (moveLoop m off ds c ce).length = ds + off + D.length ∧
    ∀ i, (moveLoop m off ds c ce)[ds + off + i]? = D[i]? := by
  induction ce using Nat.strong_induction_on generalizing c with
  | _ ce ih =>
    unfold moveLoop
    split
    · rename_i h
      simp only
      set cs := max (ce - m) ds with hcs
      set data := slice c cs (ce - cs) with hdata
      have hdl : data.length = ce - cs := by
        rw [hdata]; simp [slice]; omega
      have hfit : cs + off + data.length ≤ c.length := by omega
      apply ih (ce - m) (by omega)
      · rw [length_writeAt _ _ _ hfit]; exact hlen
      · omega
      · intro i hi
        rw [getElem?_writeAt _ _ _ _ hfit, if_neg (by omega)]
        exact h1 i (by omega)
      · intro i hi
        rw [getElem?_writeAt _ _ _ _ hfit]
        split
        · rename_i hr
          have e : ds + off + i - (cs + off) = ds + i - cs := by omega
          rw [e, hdata]
          simp only [slice]
          rw [List.getElem?_take, if_pos (by omega), List.getElem?_drop]
          have e2 : cs + (ds + i - cs) = ds + i := by omega
          rw [e2]
          exact h1 i (by omega)
        · exact h2 i (by omega)
    · refine ⟨hlen, ?_⟩
      intro i
      exact h2 i (by omega)

theorem eq_append_of_drop (c D : Bytes) (n : ℕ)
    (h : ∀ i : ℕ, c[n + i]? = D[i]?) : c = c.take n ++ D := by
  have : c.drop n = D := by
    apply List.ext_getElem?
    intro i
    rw [List.getElem?_drop]; exact h i
  rw [← this]; simp

/-- The finished file. -/
theorem finishFile_spec {s0 s : State} {Lg : Log} (hF : Flat s0 s Lg)
    (h64 : max s0.maxHeader (encHeader s.header).length < 2 ^ 64)
    (hmode : (s0.maxHeader < (encHeader s.header).length ∧ 0 < s0.minBuf) ∨
      ((encHeader s.header).length ≤ s0.maxHeader ∧ 8 ≤ s0.cap ∧ s0.maxHeader ≤ s0.cap)) :
    finishFile s = .ok (le64 (max s0.maxHeader (encHeader s.header).length) ++ encHeader s.header ++
      List.replicate (s0.maxHeader - (encHeader s.header).length) 32 ++ bytesOf Lg) := by
  unfold finishFile
  simp only
  set H := encHeader s.header with hH
  set D := bytesOf Lg with hD
  have hl8 : ∀ n, (le64 n).length = 8 := by intro n; simp [le64]
  rw [hF.maxHeader, if_neg (by omega), hF.minBuf, hF.cap]
  rcases hmode with ⟨hlt, hm⟩ | ⟨hle, hc8, hcm⟩
  · rw [if_pos hlt, if_neg (by omega)]
    congr 1
    set off := H.length - s0.maxHeader with hoff
    set ds := 8 + s0.maxHeader with hds
    have htr : truncate s.file.content (8 + H.length + s.flushedSize) =
        List.replicate ds 0 ++ D ++ List.replicate off 0 := by
      unfold truncate
      rw [hF.content, hF.flushed, ← hD]
      by_cases hDn : D = []
      · rw [if_pos hDn, hDn]
        simp only [List.take_nil, List.nil_append, List.length_nil, List.append_nil, Nat.sub_zero, Nat.add_zero]
        rw [List.replicate_append_replicate]
        congr 1
        omega
      · rw [if_neg hDn, List.take_of_length_le (by simp; omega)]
        simp only [List.length_append, List.length_replicate]
        congr 2
        omega
    rw [htr, hF.flushed, ← hD]
    obtain ⟨m1, m2⟩ := moveLoop_spec s0.minBuf off ds hm D (ds + D.length)
      (List.replicate ds 0 ++ D ++ List.replicate off 0) (by simp; omega) (le_refl _)
      (by
        intro i hi
        rw [List.append_assoc, List.getElem?_append_right (by simp)]
        simp only [List.length_replicate]
        rw [show ds + i - ds = i by omega, List.getElem?_append_left (by omega)])
      (by
        intro i hi
        rw [List.getElem?_eq_none (by simp; omega), List.getElem?_eq_none (by omega)])
    have hs := eq_append_of_drop _ D (ds + off) m2
    set c := moveLoop s0.minBuf off ds (List.replicate ds 0 ++ D ++ List.replicate off 0) (ds + D.length) with hc
    rw [hs]
    have hpl : (c.take (ds + off)).length = 8 + H.length := by simp; omega
    obtain ⟨P1, P2, hP, hP1, hP2⟩ : ∃ P1 P2 : Bytes, c.take (ds + off) = P1 ++ P2 ∧ P1.length = 8 ∧ P2.length = H.length :=
      ⟨(c.take (ds + off)).take 8, (c.take (ds + off)).drop 8, by simp, by simp; omega, by simp; omega⟩
    rw [hP]
    have w1 : writeAt (P1 ++ P2 ++ D) 0 (le64 (max s0.maxHeader H.length)) = le64 (max s0.maxHeader H.length) ++ P2 ++ D := by
      have := writeAt_mid [] P1 (P2 ++ D) (le64 (max s0.maxHeader H.length)) (Or.inl (by rw [hl8, hP1]))
      simpa using this
    rw [w1]
    have w2 := writeAt_mid (le64 (max s0.maxHeader H.length)) P2 D H (Or.inl hP2)
    rw [hl8] at w2
    rw [w2]
    have : s0.maxHeader - H.length = 0 := by omega
    simp [this]
  · rw [if_neg (by omega)]
    congr 1
    have hmax : max s0.maxHeader H.length = s0.maxHeader := by omega
    rw [hmax]
    rw [rawWrite_spec _ _ (List.replicate _ _) (by rw [List.length_replicate]; omega),
      rawWrite_spec _ _ H (by omega), rawWrite_spec _ _ (le64 _) (by rw [hl8]; exact hc8)]
    simp only [seek, hF.content, hl8, ← hD]
    by_cases hDn : D = []
    · rw [if_pos hDn, hDn]
      have w1 : writeAt [] 0 (le64 s0.maxHeader) = le64 s0.maxHeader := by
        have := writeAt_mid [] [] [] (le64 s0.maxHeader) (Or.inr ⟨rfl, rfl⟩)
        simpa using this
      rw [w1]
      have w2 := writeAt_mid (le64 s0.maxHeader) [] [] H (Or.inr ⟨rfl, rfl⟩)
      simp only [hl8, List.append_nil] at w2
      simp only [Nat.zero_add]
      rw [w2]
      have w3 := writeAt_mid (le64 s0.maxHeader ++ H) [] [] (List.replicate (s0.maxHeader - H.length) 32)
        (Or.inr ⟨rfl, rfl⟩)
      simp only [List.length_append, hl8, List.append_nil] at w3
      rw [w3]; simp
    · rw [if_neg hDn]
      have e : List.replicate (8 + s0.maxHeader) (0 : UInt8) = List.replicate 8 0 ++ (List.replicate H.length 0 ++
          List.replicate (s0.maxHeader - H.length) 0) := by
        rw [List.replicate_append_replicate, List.replicate_append_replicate]; congr 1; omega
      rw [e]
      have w1 := writeAt_mid [] (List.replicate 8 0) (List.replicate H.length 0 ++
          List.replicate (s0.maxHeader - H.length) 0 ++ D) (le64 s0.maxHeader) (Or.inl (by simp [hl8]))
      simp only [List.nil_append, List.length_nil] at w1
      simp only [List.append_assoc] at w1 ⊢
      rw [w1]
      have w2 := writeAt_mid (le64 s0.maxHeader) (List.replicate H.length 0) (
          List.replicate (s0.maxHeader - H.length) 0 ++ D) H (Or.inl (by simp))
      simp only [hl8, List.append_assoc] at w2
      simp only [Nat.zero_add]
      rw [w2]
      have w3 := writeAt_mid (le64 s0.maxHeader ++ H) (List.replicate (s0.maxHeader - H.length) 0) D
        (List.replicate (s0.maxHeader - H.length) 32) (Or.inl (by simp))
      simp only [List.length_append, hl8, List.append_assoc] at w3
      rw [w3]

end Verif.StreamOut
