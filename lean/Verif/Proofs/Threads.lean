import Verif.Spec.Threads
import Verif.Proofs.Program
import Verif.Proofs.Merge
import Verif.Props.StreamIn

/-!
# Workers that load from shared files compute what the files store
-/
namespace Verif.Threads
open Method Recipe Config Eval Program Spec
open StreamOut (Tensor)
open StreamIn (ensureBuffer getItem)

/-! ### One file -/

/-- The file's object after loading `hist`, one tensor after the other -/
def now (s0 : StreamIn.State) (hist : List Key) : StreamIn.State := (StreamIn.run s0 (hist.map .load)).st

theorem now_snoc (s0 : StreamIn.State) (hist : List Key) (k : Key) : now s0 (hist ++ [k]) = (getItem (now s0 hist) k).1 := by
  unfold now
  rw [List.map_append, List.map_singleton, StreamIn.run_snoc]
  rfl

/-- A valid file just opened -/
structure Fresh (s0 : StreamIn.State) : Prop where
  opened : ∃ file bs cap, StreamIn.open_ file bs cap = .ok s0
  valid : StreamIn.Spec.ValidHeader s0.file s0.headerSize s0.header
  cap : s0.defaultBufferSize ≤ s0.cap
  cap' : ∀ k e, s0.header.get? k = some (.tensor e) → e.stop - e.start ≤ s0.cap

theorem fresh_of {opened : Str → Option StreamIn.State} (h : Opened opened) {p : Str} {s0 : StreamIn.State} (hp : opened p = some s0) :
    Fresh s0 := by
  obtain ⟨file, bs, cap, h1, h2, h3, h4⟩ := h p s0 hp
  obtain ⟨f1, f2, f3, _⟩ := StreamIn.open_fields h1
  exact ⟨⟨file, bs, cap, h1⟩, by rw [f1]; exact h2, by omega, by rw [f3]; exact h4⟩

theorem Fresh.fields {s0 : StreamIn.State} (h : Fresh s0) (hist : List Key) :
    (now s0 hist).header = s0.header ∧ (now s0 hist).headerSize = s0.headerSize ∧ (now s0 hist).file = s0.file ∧
      (now s0 hist).buf < (now s0 hist).heap.length := by
  obtain ⟨file, bs, cap, ho⟩ := h.opened
  obtain ⟨G, hG⟩ := StreamIn.run_inv ho h.valid ⟨h.cap, h.cap'⟩ (hist.map .load)
  refine ⟨hG.header, hG.hs, hG.file, ?_⟩
  have := (List.getElem?_eq_some_iff.1 hG.gbuf).1
  have h2 := hG.glen
  show (StreamIn.run s0 (hist.map .load)).st.buf < _
  unfold now
  omega

theorem Fresh.load {s0 : StreamIn.State} (h : Fresh s0) (hist : List Key) {k : Key} {e : Entry} (hk : s0.header.get? k = some (.tensor e))
    (hm : k ≠ metadataKey) :
    ∃ s v, getItem (now s0 hist) k = (s, .ok v) ∧ (⟨v.dtype, v.shape, s.read v⟩ : Tensor) = Overwrite.Spec.tensorAt s0.file s0.headerSize e := by
  obtain ⟨file, bs, cap, ho⟩ := h.opened
  obtain ⟨f1, f2, f3, _⟩ := StreamIn.open_fields ho
  obtain ⟨s, v, h1, h2, h3, h4⟩ := StreamIn.C01_read_exact file bs cap s0 ho (by rw [← f1]; exact h.valid) (by have := h.cap; omega)
    (by rw [← f3]; exact h.cap') hist k e hk hm
  refine ⟨s, v, h1, ?_⟩
  rw [h2, h3, h4, Overwrite.Spec.tensorAt, f1]

/-- The statements of `_ensure_buffer` together -/
theorem ensure_eq (s : StreamIn.State) (e : Entry) (h : needs s e = true) :
    ensureBuffer s (startOf s e) (e.stop - e.start) =
      { s with
        heap := s.heap ++ [slice s.file (startOf s e) (min (fresh s e).length s.cap) ++
          (fresh s e).drop (slice s.file (startOf s e) (min (fresh s e).length s.cap)).length]
        buf := s.heap.length
        bufStart := startOf s e } := by
  have h := of_decide_eq_true h
  unfold ensureBuffer
  rw [if_pos h]
  rfl

theorem ensure_eq' (s : StreamIn.State) (e : Entry) (h : needs s e = false) :
    ensureBuffer s (startOf s e) (e.stop - e.start) = s := by
  have h := of_decide_eq_false h
  unfold ensureBuffer
  rw [if_neg h]

theorem getItem_eq {s : StreamIn.State} {k : Key} {e : Entry} (hk : s.header.get? k = some (.tensor e)) (hm : k ≠ metadataKey)
    (he : e.start < e.stop) :
    getItem s k = (ensureBuffer s (startOf s e) (e.stop - e.start), viewOf (ensureBuffer s (startOf s e) (e.stop - e.start)) e) := by
  have hs : (ensureBuffer s (startOf s e) (e.stop - e.start)).headerSize = s.headerSize := by
    unfold ensureBuffer; split_ifs <;> rfl
  unfold getItem
  simp only [hk, if_neg hm]
  unfold StreamIn.loadTensor
  have h1 : ¬ e.stop < e.start := by omega
  have h2 : ¬ e.stop - e.start = 0 := by omega
  simp only [if_neg h1, if_neg h2]
  have h3 : startOf (ensureBuffer s (startOf s e) (e.stop - e.start)) e = startOf s e :=
    congrArg (fun n => 8 + n + e.start) hs
  have h4 : 8 + s.headerSize + e.start = startOf s e := rfl
  rw [h4]
  unfold viewOf
  rw [h3]
  generalize ensureBuffer s (startOf s e) (e.stop - e.start) = S
  generalize startOf s e = a
  simp only
  split_ifs <;> rfl

/-- After `alloc` -/
def afterAlloc (s : StreamIn.State) (e : Entry) : StreamIn.State := { s with heap := s.heap ++ [fresh s e], buf := s.heap.length }

/-- After `fill` -/
def afterFill (s : StreamIn.State) (e : Entry) : StreamIn.State :=
  { s with
    heap := s.heap ++ [slice s.file (startOf s e) (min (fresh s e).length s.cap) ++
      (fresh s e).drop (slice s.file (startOf s e) (min (fresh s e).length s.cap)).length]
    buf := s.heap.length }

theorem modify_last {α : Type} (l : List α) (x : α) (f : α → α) : (l ++ [x]).modify l.length f = l ++ [f x] := by
  induction l with
  | nil => rfl
  | cons a l ih => simp [ih]

theorem buffer_afterAlloc (s : StreamIn.State) (e : Entry) : (afterAlloc s e).buffer = fresh s e := by
  simp [afterAlloc, StreamIn.State.buffer]

/-- A file while a job is inside the lock: `s` is the object before the load (after it, once the view is made), `R` the answer due. -/
def Mid (s : StreamIn.State) (e : Entry) (R : Except Err Tensor) (fs : FState) : Pc → Prop
  | .check e' => e' = e ∧ fs.st = s
  | .seek e' => e' = e ∧ fs.st = s ∧ needs s e = true
  | .alloc e' => e' = e ∧ fs.st = s ∧ needs s e = true ∧ fs.pos = startOf s e
  | .fill e' => e' = e ∧ fs.st = afterAlloc s e ∧ needs s e = true ∧ fs.pos = startOf s e
  | .offset e' => e' = e ∧ fs.st = afterFill s e ∧ needs s e = true
  | .view e' => e' = e ∧ fs.st = ensureBuffer s (startOf s e) (e.stop - e.start)
  | .release r => fs.st = s ∧ r = R
  | _ => False

theorem Mid.heap {s : StreamIn.State} {e : Entry} {R : Except Err Tensor} {fs : FState} {pc : Pc} (h : Mid s e R fs pc) :
    s.heap <+: fs.st.heap := by
  cases pc with
  | idle => exact h.elim
  | wait e => exact h.elim
  | check e => rw [h.2]; exact List.prefix_rfl
  | seek e => rw [h.2.1]; exact List.prefix_rfl
  | alloc e => rw [h.2.1]; exact List.prefix_rfl
  | fill e => rw [h.2.1]; exact ⟨_, rfl⟩
  | offset e => rw [h.2.1]; exact ⟨_, rfl⟩
  | view e => rw [h.2]; exact StreamIn.ensureBuffer_heap _ _ _
  | release r => rw [h.1]; exact List.prefix_rfl

theorem Mid.same {s : StreamIn.State} {e : Entry} {R : Except Err Tensor} {fs : FState} {pc : Pc} (h : Mid s e R fs pc) :
    fs.st.header = s.header ∧ fs.st.headerSize = s.headerSize := by
  have h2 : ∀ p l, (ensureBuffer s p l).header = s.header ∧ (ensureBuffer s p l).headerSize = s.headerSize := by
    intro p l; unfold ensureBuffer; split_ifs <;> exact ⟨rfl, rfl⟩
  cases pc with
  | idle => exact h.elim
  | wait e => exact h.elim
  | check e => rw [h.2]; exact ⟨rfl, rfl⟩
  | seek e => rw [h.2.1]; exact ⟨rfl, rfl⟩
  | alloc e => rw [h.2.1]; exact ⟨rfl, rfl⟩
  | fill e => rw [h.2.1]; exact ⟨rfl, rfl⟩
  | offset e => rw [h.2.1]; exact ⟨rfl, rfl⟩
  | view e => rw [h.2]; exact h2 _ _
  | release r => rw [h.1]; exact ⟨rfl, rfl⟩

/-- One statement inside the lock that makes no view and does not leave -/
theorem Mid.go {s : StreamIn.State} {e : Entry} {R : Except Err Tensor} {fs fs' : FState} {pc pc' : Pc} {me : Str} {key : Key}
    (h : Mid s e R fs pc) (hv : ∀ e', pc ≠ .view e') (hs : loadStep me key fs pc = some (fs', .go pc')) :
    Mid s e R fs' pc' ∧ fs'.lock = fs.lock := by
  cases pc with
  | idle => exact h.elim
  | wait e => exact h.elim
  | view e => exact absurd rfl (hv e)
  | release r => simp [loadStep] at hs
  | check e' =>
    obtain ⟨rfl, h⟩ := h
    simp only [loadStep, Option.some.injEq, Prod.mk.injEq, Next.go.injEq] at hs
    obtain ⟨rfl, rfl⟩ := hs
    refine ⟨?_, rfl⟩
    rw [h]
    split_ifs with hn
    · exact ⟨rfl, h, hn⟩
    · exact ⟨rfl, by rw [h, ensure_eq' _ _ (by simpa using hn)]⟩
  | seek e' =>
    obtain ⟨rfl, h, hn⟩ := h
    simp only [loadStep, Option.some.injEq, Prod.mk.injEq, Next.go.injEq] at hs
    obtain ⟨rfl, rfl⟩ := hs
    exact ⟨⟨rfl, h, hn, by rw [h]⟩, rfl⟩
  | alloc e' =>
    obtain ⟨rfl, h, hn, hp⟩ := h
    simp only [loadStep, Option.some.injEq, Prod.mk.injEq, Next.go.injEq] at hs
    obtain ⟨rfl, rfl⟩ := hs
    exact ⟨⟨rfl, by show (_ : StreamIn.State) = _; rw [h]; rfl, hn, hp⟩, rfl⟩
  | fill e' =>
    obtain ⟨rfl, h, hn, hp⟩ := h
    simp only [loadStep, Option.some.injEq, Prod.mk.injEq, Next.go.injEq] at hs
    obtain ⟨rfl, rfl⟩ := hs
    refine ⟨⟨rfl, ?_, hn⟩, rfl⟩
    show (_ : StreamIn.State) = _
    simp only [h, hp, buffer_afterAlloc]
    simp only [afterAlloc, afterFill, modify_last]
  | offset e' =>
    obtain ⟨rfl, h, hn⟩ := h
    simp only [loadStep, Option.some.injEq, Prod.mk.injEq, Next.go.injEq] at hs
    obtain ⟨rfl, rfl⟩ := hs
    refine ⟨⟨rfl, ?_⟩, rfl⟩
    show (_ : StreamIn.State) = _
    rw [h, ensure_eq _ _ hn]
    rfl

/-! ### All files and jobs -/

variable {V : Type}

/-- Between acquiring and releasing the lock -/
def Inside : Pc → Prop
  | .idle | .wait _ => False
  | _ => True

/-- What holds in every state of an execution: the files are as after loading `hist p` one after the other, except for the statements of
the job that is inside the lock. -/
structure Inv (opened : Str → Option StreamIn.State) (start : Str → Prog Tensor (Except Err V)) (s : TState V) (hist : Str → List Key) :
    Prop where
  nodup : (s.base.toSubmit ++ s.base.queue ++ s.base.running).Nodup
  prog : ∀ k ∈ s.base.running, value (stored opened) (s.jobs k).prog = value (stored opened) (start k)
  wait : ∀ k ∈ s.base.running, ∀ e, (s.jobs k).pc = .wait e → ∃ p key next s0, (s.jobs k).prog = .load p key next ∧
    opened p = some s0 ∧ s0.header.get? key = some (.tensor e) ∧ key ≠ metadataKey ∧ e.start < e.stop
  inside : ∀ k ∈ s.base.running, Inside (s.jobs k).pc → ∃ p key next fs, (s.jobs k).prog = .load p key next ∧
    s.files p = some fs ∧ fs.lock = some k
  shut : ∀ p, opened p = none → s.files p = none
  file : ∀ p s0, opened p = some s0 → ∃ fs, s.files p = some fs ∧ (fs.lock = none → fs.st = now s0 (hist p)) ∧
    ∀ k, fs.lock = some k → k ∈ s.base.running ∧ ∃ key next e, (s.jobs k).prog = .load p key next ∧
      s0.header.get? key = some (.tensor e) ∧ key ≠ metadataKey ∧ e.start < e.stop ∧
      Mid (now s0 (hist p)) e (stored opened p key) fs (s.jobs k).pc
  views : ∀ p key v, (p, key, v) ∈ s.handed → ∃ s0 e, opened p = some s0 ∧ s0.header.get? key = some (.tensor e) ∧
    v.buf < (now s0 (hist p)).heap.length ∧
    (⟨v.dtype, v.shape, (now s0 (hist p)).read v⟩ : Tensor) = Overwrite.Spec.tensorAt s0.file s0.headerSize e

variable {opened : Str → Option StreamIn.State} {start : Str → Prog Tensor (Except Err V)}

/-- A change of one job and of the file it loads from -/
theorem Inv.update {s : TState V} {hist : Str → List Key} (h : Inv opened start s hist) {k p : Str} {key : Key}
    {next : Except Err Tensor → Prog Tensor (Except Err V)} {s0 : StreamIn.State} {fs : FState} (hk : k ∈ s.base.running)
    (hp : (s.jobs k).prog = .load p key next) (ho : opened p = some s0) (hf : s.files p = some fs)
    (j : Job V) (fs' : FState) (hist' : List Key) (vs : List (Str × Key × StreamIn.View))
    (hprog : value (stored opened) j.prog = value (stored opened) (s.jobs k).prog)
    (hwait : ∀ e, j.pc = .wait e → j.prog = .load p key next ∧ s0.header.get? key = some (.tensor e) ∧ key ≠ metadataKey ∧ e.start < e.stop)
    (hinside : Inside j.pc → j.prog = .load p key next ∧ fs'.lock = some k)
    (hothers : (fs' = fs ∧ hist' = hist p ∧ fs.lock ≠ some k) ∨ ((fs.lock = some k ∨ fs.lock = none) ∧ (fs'.lock = some k ∨ fs'.lock = none)))
    (hfile : fs'.lock = none → fs'.st = now s0 hist')
    (hown : fs'.lock = some k → ∃ e, j.prog = .load p key next ∧ s0.header.get? key = some (.tensor e) ∧ key ≠ metadataKey ∧
      e.start < e.stop ∧ Mid (now s0 hist') e (stored opened p key) fs' j.pc)
    (hpre : (now s0 (hist p)).heap <+: (now s0 hist').heap)
    (hviews : ∀ p' key' v, (p', key', v) ∈ vs → p' = p ∧ ∃ e, s0.header.get? key' = some (.tensor e) ∧ v.buf < (now s0 hist').heap.length ∧
      (⟨v.dtype, v.shape, (now s0 hist').read v⟩ : Tensor) = Overwrite.Spec.tensorAt s0.file s0.headerSize e) :
    Inv opened start { s with jobs := setJob s.jobs k j, files := setFile s.files p fs', handed := s.handed ++ vs }
      (fun p' => if p' = p then hist' else hist p') := by
  refine ⟨h.nodup, ?_, ?_, ?_, ?_, ?_, ?_⟩
  · intro k' hk'
    by_cases hkk : k' = k
    · subst hkk
      simp only [setJob, if_true]
      rw [hprog]
      exact h.prog k' hk
    · simp only [setJob, if_neg hkk]
      exact h.prog k' hk'
  · intro k' hk' e he
    by_cases hkk : k' = k
    · subst hkk
      simp only [setJob, if_true] at he ⊢
      obtain ⟨a, b⟩ := hwait e he
      exact ⟨p, key, next, s0, a, ho, b⟩
    · simp only [setJob, if_neg hkk] at he ⊢
      exact h.wait k' hk' e he
  · intro k' hk' hi
    by_cases hkk : k' = k
    · subst hkk
      simp only [setJob, if_true] at hi ⊢
      obtain ⟨a, b⟩ := hinside hi
      exact ⟨p, key, next, fs', a, by simp [setFile], b⟩
    · simp only [setJob, if_neg hkk] at hi ⊢
      obtain ⟨p', key', next', fs1, a, b, c⟩ := h.inside k' hk' hi
      by_cases hpp : p' = p
      · subst hpp
        rw [hf] at b
        cases b
        rcases hothers with ⟨q, _⟩ | ⟨q, _⟩
        · exact ⟨p', key', next', fs', a, by simp [setFile], by rw [q]; exact c⟩
        · rw [c] at q
          rcases q with q | q
          · exact absurd (Option.some.inj q) hkk
          · cases q
      · exact ⟨p', key', next', fs1, a, by simp [setFile, hpp, b], c⟩
  · intro p' hp'
    have : p' ≠ p := by rintro rfl; rw [ho] at hp'; cases hp'
    simp only [setFile, if_neg this]
    exact h.shut p' hp'
  · intro p' s1 hs1
    by_cases hpp : p' = p
    · subst hpp
      rw [ho] at hs1
      cases hs1
      refine ⟨fs', by simp [setFile], ?_, ?_⟩
      · simp only [if_true]; exact hfile
      · intro k' hk'
        simp only [if_true]
        by_cases hkk : k' = k
        · subst hkk
          obtain ⟨e, a, b⟩ := hown hk'
          refine ⟨hk, key, next, e, ?_, ?_⟩
          · simp only [setJob, if_true]; exact a
          · simp only [setJob, if_true]; exact b
        · rcases hothers with ⟨q, q2, _⟩ | ⟨_, q⟩
          · obtain ⟨fs1, b, _, c⟩ := h.file p' s0 ho
            rw [hf] at b
            cases b
            rw [q] at hk' ⊢
            rw [q2]
            obtain ⟨d1, key', next', e, d2, d3⟩ := c k' hk'
            refine ⟨d1, key', next', e, ?_, ?_⟩
            · simp only [setJob, if_neg hkk]; exact d2
            · simp only [setJob, if_neg hkk]; exact d3
          · rw [hk'] at q
            rcases q with q | q
            · exact absurd (Option.some.inj q) hkk
            · cases q
    · obtain ⟨fs1, b, c1, c2⟩ := h.file p' s1 hs1
      refine ⟨fs1, by simp [setFile, hpp, b], by simp only [if_neg hpp]; exact c1, ?_⟩
      intro k' hk'
      obtain ⟨d1, key', next', e, d2, d3⟩ := c2 k' hk'
      have hkk : k' ≠ k := by
        rintro rfl
        rw [hp] at d2
        injection d2 with d2 _ _
        exact hpp d2.symm
      refine ⟨d1, key', next', e, ?_, ?_⟩
      · simp only [setJob, if_neg hkk]; exact d2
      · simp only [setJob, if_neg hkk, if_neg hpp]; exact d3
  · intro p' key' v hm
    rcases List.mem_append.1 hm with hm | hm
    · obtain ⟨s1, e, a, b, c, d⟩ := h.views p' key' v hm
      by_cases hpp : p' = p
      · subst hpp
        rw [ho] at a
        cases a
        refine ⟨s0, e, ho, b, ?_, ?_⟩
        · simp only [if_true]
          exact Nat.lt_of_lt_of_le c hpre.length_le
        · simp only [if_true]
          rw [StreamIn.read_of_prefix hpre v c]
          exact d
      · refine ⟨s1, e, a, b, ?_, ?_⟩
        · simp only [if_neg hpp]; exact c
        · simp only [if_neg hpp]; exact d
    · obtain ⟨rfl, e, a, b, c⟩ := hviews p' key' v hm
      refine ⟨s0, e, ho, a, ?_, ?_⟩
      · simp only [if_true]; exact b
      · simp only [if_true]; exact c

theorem hist_same (hist : Str → List Key) (p : Str) : (fun p' => if p' = p then hist p else hist p') = hist := by
  funext p'
  split_ifs with h
  · rw [h]
  · rfl

/-- The file a job loads from, as the invariant describes it -/
theorem Inv.own {s : TState V} {hist : Str → List Key} (h : Inv opened start s hist) {k p : Str} {key : Key}
    {next : Except Err Tensor → Prog Tensor (Except Err V)} {fs : FState} (hk : k ∈ s.base.running)
    (hp : (s.jobs k).prog = .load p key next) (hf : s.files p = some fs) :
    ∃ s0, opened p = some s0 ∧ (fs.lock = none → fs.st = now s0 (hist p)) ∧
      (Inside (s.jobs k).pc → fs.lock = some k ∧ ∃ e, s0.header.get? key = some (.tensor e) ∧ key ≠ metadataKey ∧ e.start < e.stop ∧
        Mid (now s0 (hist p)) e (stored opened p key) fs (s.jobs k).pc) ∧
      (¬ Inside (s.jobs k).pc → fs.lock ≠ some k) ∧
      (∀ k', fs.lock = some k' → ∃ e R pc, Mid (now s0 (hist p)) e R fs pc) := by
  cases ho : opened p with
  | none => rw [h.shut p ho] at hf; cases hf
  | some s0 =>
    obtain ⟨fs1, b, c1, c2⟩ := h.file p s0 ho
    rw [hf] at b
    cases b
    refine ⟨s0, rfl, c1, ?_, ?_, ?_⟩
    · intro hi
      obtain ⟨p', key', next', fs2, d1, d2, d3⟩ := h.inside k hk hi
      rw [hp] at d1
      injection d1 with d1 _ _
      subst d1
      rw [hf] at d2
      cases d2
      refine ⟨d3, ?_⟩
      obtain ⟨_, key'', next'', e, f1, f2, f3, f4, f5⟩ := c2 k d3
      rw [hp] at f1
      injection f1 with _ f1 _
      subst f1
      exact ⟨e, f2, f3, f4, f5⟩
    · intro hi hl
      obtain ⟨_, key'', next'', e, f1, f2, f3, f4, f5⟩ := c2 k hl
      apply hi
      cases hpc : (s.jobs k).pc with
      | idle => rw [hpc] at f5; exact f5.elim
      | wait e => rw [hpc] at f5; exact f5.elim
      | _ => trivial
    · intro k' hl
      obtain ⟨_, key'', next'', e, f1, f2, f3, f4, f5⟩ := c2 k' hl
      exact ⟨e, _, _, f5⟩

theorem header_of {hist : Str → List Key} (hop : Opened opened) {s0 : StreamIn.State} {p : Str} {fs : FState}
    (ho : opened p = some s0) (h1 : fs.lock = none → fs.st = now s0 (hist p))
    (h2 : ∀ k', fs.lock = some k' → ∃ e R pc, Mid (now s0 (hist p)) e R fs pc) : fs.st.header = s0.header := by
  have hn := (fresh_of hop ho).fields (hist p)
  cases hl : fs.lock with
  | none => rw [h1 hl]; exact hn.1
  | some k' =>
    obtain ⟨e, R, pc, hm⟩ := h2 k' hl
    rw [hm.same.1]; exact hn.1

theorem stored_eq {p : Str} {s0 : StreamIn.State} (ho : opened p = some s0) {key : Key} {e : Entry}
    (hk : s0.header.get? key = some (.tensor e)) (hm : key ≠ metadataKey) :
    stored opened p key = .ok (Overwrite.Spec.tensorAt s0.file s0.headerSize e) := by
  unfold stored
  simp only [ho, if_neg hm, hk]

/-- A statement of a load -/
theorem Inv.load {s : TState V} {hist : Str → List Key} (h : Inv opened start s hist) (hop : Opened opened) {k p : Str} {key : Key}
    {next : Except Err Tensor → Prog Tensor (Except Err V)} {fs fs' : FState} {nx : Next} (hk : k ∈ s.base.running)
    (hp : (s.jobs k).prog = .load p key next) (hf : s.files p = some fs) (hs : loadStep k key fs (s.jobs k).pc = some (fs', nx)) :
    ∃ hist', match nx with
      | .go pc => Inv opened start { s with jobs := setJob s.jobs k ⟨(s.jobs k).prog, pc⟩, files := setFile s.files p fs' } hist'
      | .made v pc => Inv opened start { s with
          jobs := setJob s.jobs k ⟨(s.jobs k).prog, pc⟩, files := setFile s.files p fs', handed := s.handed ++ [(p, key, v)] } hist'
      | .answer r => Inv opened start { s with jobs := setJob s.jobs k ⟨next r, .idle⟩, files := setFile s.files p fs' } hist' := by
  obtain ⟨s0, ho, hnone, hin, hout, hmid⟩ := h.own hk hp hf
  have hfr := fresh_of hop ho
  have hhd := header_of hop ho hnone hmid
  have hval : value (stored opened) (s.jobs k).prog = value (stored opened) (next (stored opened p key)) := by rw [hp]; rfl
  -- a step that changes the job only
  have same : ∀ j : Job V, ¬ Inside (s.jobs k).pc → ¬ Inside j.pc → value (stored opened) j.prog = value (stored opened) (s.jobs k).prog →
      (∀ e, j.pc = .wait e → j.prog = .load p key next ∧ s0.header.get? key = some (.tensor e) ∧ key ≠ metadataKey ∧ e.start < e.stop) →
      Inv opened start { s with jobs := setJob s.jobs k j, files := setFile s.files p fs } hist := by
    intro j hi hi' hv hw
    have := h.update hk hp ho hf j fs (hist p) [] hv hw (fun hx => absurd hx hi') (Or.inl ⟨rfl, rfl, hout hi⟩) hnone
      (fun hl => absurd hl (hout hi)) List.prefix_rfl (by intro _ _ _ hx; cases hx)
    rw [hist_same, List.append_nil] at this
    exact this
  -- a step inside the lock that does not change what was loaded
  have mid : ∀ (pc : Pc) (fs'' : FState) (e : Entry), fs.lock = some k → s0.header.get? key = some (.tensor e) → key ≠ metadataKey →
      e.start < e.stop → Mid (now s0 (hist p)) e (stored opened p key) fs'' pc → fs''.lock = fs.lock →
      Inv opened start { s with jobs := setJob s.jobs k ⟨(s.jobs k).prog, pc⟩, files := setFile s.files p fs'' } hist := by
    intro pc fs'' e hl he hm hse hmd hl'
    have := h.update hk hp ho hf ⟨(s.jobs k).prog, pc⟩ fs'' (hist p) [] rfl
      (by intro e' hx; simp only at hx; rw [hx] at hmd; exact hmd.elim) (fun _ => ⟨hp, by rw [hl', hl]⟩)
      (Or.inr ⟨Or.inl hl, Or.inl (by rw [hl', hl])⟩) (by intro hx; rw [hl', hl] at hx; cases hx)
      (fun _ => ⟨e, hp, he, hm, hse, hmd⟩) List.prefix_rfl (by intro _ _ _ hx; cases hx)
    rw [hist_same, List.append_nil] at this
    exact this
  cases hpc : (s.jobs k).pc with
  | idle =>
    rw [hpc] at hs
    have hi : ¬ Inside (s.jobs k).pc := by rw [hpc]; exact id
    have answer : ∀ r, stored opened p key = r →
        Inv opened start { s with jobs := setJob s.jobs k ⟨next r, .idle⟩, files := setFile s.files p fs } hist := by
      intro r hr
      exact same ⟨next r, .idle⟩ hi id (by rw [hval, hr]) (by intro e he; cases he)
    simp only [loadStep, hhd] at hs
    refine ⟨hist, ?_⟩
    have missing : (∀ e, s0.header.get? key ≠ some (.tensor e)) → stored opened p key = .error .stateDictKey := by
      intro hx
      unfold stored
      simp only [ho]
      split_ifs with hz
      · rfl
      · cases hg : s0.header.get? key with
        | none => rfl
        | some v =>
          cases v with
          | tensor e => exact absurd hg (hx e)
          | metadata m => rfl
    split at hs
    · rename_i e he
      have hv := hfr.valid key e he
      have hw : 0 < Safetensors.width e.dtype := by cases e.dtype <;> decide
      split_ifs at hs with h1 h2 h3 h4
      · simp only [Option.some.injEq, Prod.mk.injEq] at hs
        obtain ⟨rfl, rfl⟩ := hs
        exact answer _ (by unfold stored; simp only [ho, if_pos h1])
      · exact absurd h2 (by have := hv.ordered; omega)
      · simp only [Option.some.injEq, Prod.mk.injEq] at hs
        obtain ⟨rfl, rfl⟩ := hs
        refine answer _ ?_
        rw [stored_eq ho he h1]
        rw [Overwrite.Spec.tensorAt, StreamIn.Spec.bytesOf, h3, List.take_zero]
      · have hz := hv.size
        rw [h3] at hz
        rcases Nat.mul_eq_zero.1 hz.symm with h | h
        · exact absurd h h4
        · omega
      · simp only [Option.some.injEq, Prod.mk.injEq] at hs
        obtain ⟨rfl, rfl⟩ := hs
        refine same ⟨(s.jobs k).prog, .wait e⟩ hi id rfl ?_
        intro e' he'
        injection he' with he'
        subst he'
        exact ⟨hp, he, h1, by omega⟩
    · rename_i hno
      simp only [Option.some.injEq, Prod.mk.injEq] at hs
      obtain ⟨rfl, rfl⟩ := hs
      exact answer _ (missing fun e he => hno e he)
  | wait e =>
    rw [hpc] at hs
    have hi : ¬ Inside (s.jobs k).pc := by rw [hpc]; exact id
    obtain ⟨p', key', next', s1, a1, a2, a3, a4, a5⟩ := h.wait k hk e hpc
    rw [hp] at a1
    injection a1 with a1 a1' _
    subst a1 a1'
    rw [ho] at a2
    cases a2
    simp only [loadStep] at hs
    split_ifs at hs with hl
    simp only [Option.some.injEq, Prod.mk.injEq] at hs
    obtain ⟨rfl, rfl⟩ := hs
    have hl : fs.lock = none := by simpa using hl
    refine ⟨hist, ?_⟩
    have := h.update hk hp ho hf ⟨(s.jobs k).prog, .check e⟩ { fs with lock := some k } (hist p) [] rfl
      (by intro e' hx; cases hx) (fun _ => ⟨hp, rfl⟩) (Or.inr ⟨Or.inr hl, Or.inl rfl⟩) (by intro hx; cases hx)
      (fun _ => ⟨e, hp, a3, a4, a5, rfl, hnone hl⟩) List.prefix_rfl (by intro _ _ _ hx; cases hx)
    rw [hist_same, List.append_nil] at this
    exact this
  | view e =>
    obtain ⟨hl, e', he, hm, hse, hmd⟩ := hin (by rw [hpc]; trivial)
    rw [hpc] at hs hmd
    obtain ⟨rfl, hst⟩ := hmd
    obtain ⟨s', v, g1, g2⟩ := hfr.load (hist p) he hm
    have hh := hfr.fields (hist p)
    rw [getItem_eq (by rw [hh.1]; exact he) hm hse, ← hst] at g1
    obtain ⟨rfl, g3⟩ := Prod.mk.inj g1
    simp only [loadStep, g3, Option.some.injEq, Prod.mk.injEq] at hs
    obtain ⟨rfl, rfl⟩ := hs
    have hnow : now s0 (hist p ++ [key]) = fs.st := by
      rw [now_snoc, getItem_eq (by rw [hh.1]; exact he) hm hse, hst]
    have hbuf : v.buf = fs.st.buf := by
      unfold viewOf at g3
      simp only at g3
      split_ifs at g3
      rw [← Except.ok.inj g3]
    have hlt : fs.st.buf < fs.st.heap.length := by
      rw [← hnow]; exact (hfr.fields (hist p ++ [key])).2.2.2
    refine ⟨fun p' => if p' = p then hist p ++ [key] else hist p', ?_⟩
    refine h.update hk hp ho hf ⟨(s.jobs k).prog, .release (.ok ⟨v.dtype, v.shape, fs.st.read v⟩)⟩ fs (hist p ++ [key]) [(p, key, v)] rfl
      (by intro e' hx; cases hx) (fun _ => ⟨hp, hl⟩) (Or.inr ⟨Or.inl hl, Or.inl hl⟩) (fun _ => hnow.symm)
      (fun _ => ⟨e, hp, he, hm, hse, hnow.symm, by rw [stored_eq ho he hm, g2]⟩) ?_ ?_
    · rw [hnow]
      rw [hst]
      exact StreamIn.ensureBuffer_heap _ _ _
    · intro p' key' v' hx
      simp only [List.mem_singleton, Prod.mk.injEq] at hx
      obtain ⟨rfl, rfl, rfl⟩ := hx
      exact ⟨rfl, e, he, by rw [hnow, hbuf]; exact hlt, by rw [hnow]; exact g2⟩
  | release r =>
    obtain ⟨hl, e', he, hm, hse, hmd⟩ := hin (by rw [hpc]; trivial)
    rw [hpc] at hs hmd
    obtain ⟨hst, hr⟩ := hmd
    simp only [loadStep, Option.some.injEq, Prod.mk.injEq] at hs
    obtain ⟨rfl, rfl⟩ := hs
    refine ⟨hist, ?_⟩
    have := h.update hk hp ho hf ⟨next r, .idle⟩ { fs with lock := none } (hist p) [] (by rw [hval, hr])
      (by intro e' hx; cases hx) (fun hx => hx.elim) (Or.inr ⟨Or.inl hl, Or.inr rfl⟩) (fun _ => hst)
      (by intro hx; cases hx) List.prefix_rfl (by intro _ _ _ hx; cases hx)
    rw [hist_same, List.append_nil] at this
    exact this
  | check e =>
    obtain ⟨hl, e', he, hm, hse, hmd⟩ := hin (by rw [hpc]; trivial)
    rw [hpc] at hs hmd
    cases nx with
    | go pc =>
      obtain ⟨q1, q2⟩ := hmd.go (by intro _ hx; cases hx) hs
      exact ⟨hist, mid pc fs' e' hl he hm hse q1 q2⟩
    | made v pc => simp [loadStep] at hs
    | answer r => simp [loadStep] at hs
  | seek e =>
    obtain ⟨hl, e', he, hm, hse, hmd⟩ := hin (by rw [hpc]; trivial)
    rw [hpc] at hs hmd
    cases nx with
    | go pc =>
      obtain ⟨q1, q2⟩ := hmd.go (by intro _ hx; cases hx) hs
      exact ⟨hist, mid pc fs' e' hl he hm hse q1 q2⟩
    | made v pc => simp [loadStep] at hs
    | answer r => simp [loadStep] at hs
  | alloc e =>
    obtain ⟨hl, e', he, hm, hse, hmd⟩ := hin (by rw [hpc]; trivial)
    rw [hpc] at hs hmd
    cases nx with
    | go pc =>
      obtain ⟨q1, q2⟩ := hmd.go (by intro _ hx; cases hx) hs
      exact ⟨hist, mid pc fs' e' hl he hm hse q1 q2⟩
    | made v pc => simp [loadStep] at hs
    | answer r => simp [loadStep] at hs
  | fill e =>
    obtain ⟨hl, e', he, hm, hse, hmd⟩ := hin (by rw [hpc]; trivial)
    rw [hpc] at hs hmd
    cases nx with
    | go pc =>
      obtain ⟨q1, q2⟩ := hmd.go (by intro _ hx; cases hx) hs
      exact ⟨hist, mid pc fs' e' hl he hm hse q1 q2⟩
    | made v pc => simp [loadStep] at hs
    | answer r => simp [loadStep] at hs
  | offset e =>
    obtain ⟨hl, e', he, hm, hse, hmd⟩ := hin (by rw [hpc]; trivial)
    rw [hpc] at hs hmd
    cases nx with
    | go pc =>
      obtain ⟨q1, q2⟩ := hmd.go (by intro _ hx; cases hx) hs
      exact ⟨hist, mid pc fs' e' hl he hm hse q1 q2⟩
    | made v pc => simp [loadStep] at hs
    | answer r => simp [loadStep] at hs

/-- A step of the main thread that touches no job -/
theorem Inv.main {s : TState V} {hist : Str → List Key} (h : Inv opened start s hist) (b : Merge.State V) (hr : b.running = s.base.running)
    (hn : (b.toSubmit ++ b.queue ++ b.running).Nodup) : Inv opened start { s with base := b } hist := by
  refine ⟨hn, ?_, ?_, ?_, h.shut, ?_, h.views⟩
  · intro k hk; exact h.prog k (by rw [← hr]; exact hk)
  · intro k hk; exact h.wait k (by rw [← hr]; exact hk)
  · intro k hk; exact h.inside k (by rw [← hr]; exact hk)
  · intro p s0 ho
    obtain ⟨fs, a, c, d⟩ := h.file p s0 ho
    refine ⟨fs, a, c, ?_⟩
    intro k hk
    obtain ⟨d1, d2⟩ := d k hk
    exact ⟨by show k ∈ b.running; rw [hr]; exact d1, d2⟩

/-- The outcome of a key according to what the files store -/
def outcome (opened : Str → Option StreamIn.State) (start : Str → Prog Tensor (Except Err V)) (k : Str) : Except Err V :=
  value (stored opened) (start k)

/-- Every step keeps the invariant, and the main thread sees a step (or none) of a merge whose keys have the outcomes according to what
the files store. -/
theorem Inv.step {s t : TState V} {hist : Str → List Key} {n : ℕ} (h : Inv opened start s hist) (hop : Opened opened)
    (hs : Step n start s t) : (∃ hist', Inv opened start t hist') ∧
      (t.base = s.base ∨ Merge.Step n (outcome opened start) s.base t.base) := by
  cases hs with
  | submit k ks hh =>
    refine ⟨⟨hist, h.main _ rfl ?_⟩, Or.inr (.submit s.base k ks hh)⟩
    have := h.nodup
    rw [hh] at this
    refine (List.Perm.nodup_iff ?_).1 this
    simp only [List.cons_append, List.append_assoc]
    rw [← List.append_assoc ks, ← List.append_assoc ks]
    have : (k :: (ks ++ (s.base.queue ++ s.base.running))).Perm (ks ++ s.base.queue ++ (k :: s.base.running)) := by
      rw [← List.append_assoc]; exact List.perm_middle.symm
    simpa using this
  | start k q hh hn =>
    refine ⟨⟨hist, ?_⟩, Or.inr (.start s.base k q hh hn)⟩
    have hnd := h.nodup
    rw [hh] at hnd
    have hnot : k ∉ s.base.running := by
      intro hk
      rw [List.append_assoc] at hnd
      have := (List.nodup_append.1 hnd).2.1
      simp only [List.cons_append, List.nodup_cons] at this
      exact this.1 (List.mem_append_right _ hk)
    have hne : ∀ k' ∈ s.base.running, k' ≠ k := by rintro k' hk' rfl; exact hnot hk'
    refine ⟨?_, ?_, ?_, ?_, h.shut, ?_, h.views⟩
    · refine (List.Perm.nodup_iff ?_).1 hnd
      show (s.base.toSubmit ++ k :: q ++ s.base.running).Perm (s.base.toSubmit ++ q ++ (s.base.running ++ [k]))
      rw [List.append_assoc, List.append_assoc]
      refine List.Perm.append_left _ ?_
      rw [List.cons_append]
      have : (k :: (q ++ s.base.running)).Perm ((q ++ s.base.running) ++ [k]) := (List.perm_append_singleton _ _).symm
      simpa using this
    · intro k' hk'
      rcases List.mem_append.1 hk' with hk' | hk'
      · simp only [setJob, if_neg (hne k' hk')]; exact h.prog k' hk'
      · rw [List.mem_singleton] at hk'
        subst hk'
        simp only [setJob, if_true]
    · intro k' hk' e he
      rcases List.mem_append.1 hk' with hk' | hk'
      · simp only [setJob, if_neg (hne k' hk')] at he ⊢; exact h.wait k' hk' e he
      · rw [List.mem_singleton] at hk'
        subst hk'
        simp only [setJob, if_true] at he
        cases he
    · intro k' hk' hi
      rcases List.mem_append.1 hk' with hk' | hk'
      · simp only [setJob, if_neg (hne k' hk')] at hi ⊢; exact h.inside k' hk' hi
      · rw [List.mem_singleton] at hk'
        subst hk'
        simp only [setJob, if_true] at hi
        exact hi.elim
    · intro p s0 ho
      obtain ⟨fs, a, c, d⟩ := h.file p s0 ho
      refine ⟨fs, a, c, ?_⟩
      intro k' hk'
      obtain ⟨d1, d2⟩ := d k' hk'
      refine ⟨List.mem_append_left _ d1, ?_⟩
      simp only [setJob, if_neg (hne k' d1)]
      exact d2
  | goes k p key next fs fs' pc hk hp hf hl =>
    obtain ⟨hist', h'⟩ := h.load hop hk hp hf hl
    exact ⟨⟨hist', h'⟩, Or.inl rfl⟩
  | makes k p key next fs fs' v pc hk hp hf hl =>
    obtain ⟨hist', h'⟩ := h.load hop hk hp hf hl
    exact ⟨⟨hist', h'⟩, Or.inl rfl⟩
  | answers k p key next fs fs' r hk hp hf hl =>
    obtain ⟨hist', h'⟩ := h.load hop hk hp hf hl
    exact ⟨⟨hist', h'⟩, Or.inl rfl⟩
  | closed k p key next hk hp hf =>
    refine ⟨⟨hist, ?_⟩, Or.inl rfl⟩
    have ho : opened p = none := by
      cases ho : opened p with
      | none => rfl
      | some s0 =>
        obtain ⟨fs, a, _⟩ := h.file p s0 ho
        rw [hf] at a; cases a
    refine ⟨h.nodup, ?_, ?_, ?_, h.shut, ?_, h.views⟩
    · intro k' hk'
      by_cases hkk : k' = k
      · subst hkk
        simp only [setJob, if_true]
        rw [← h.prog k' hk, hp]
        simp only [value, stored, ho]
      · simp only [setJob, if_neg hkk]; exact h.prog k' hk'
    · intro k' hk' e he
      by_cases hkk : k' = k
      · subst hkk
        simp only [setJob, if_true] at he
        cases he
      · simp only [setJob, if_neg hkk] at he ⊢; exact h.wait k' hk' e he
    · intro k' hk' hi
      by_cases hkk : k' = k
      · subst hkk
        simp only [setJob, if_true] at hi
        exact hi.elim
      · simp only [setJob, if_neg hkk] at hi ⊢; exact h.inside k' hk' hi
    · intro p' s0 ho'
      obtain ⟨fs, a, c, d⟩ := h.file p' s0 ho'
      refine ⟨fs, a, c, ?_⟩
      intro k' hk'
      obtain ⟨d1, key', next', e, d2, d3⟩ := d k' hk'
      have hkk : k' ≠ k := by
        rintro rfl
        rw [hp] at d2
        injection d2 with d2 _ _
        subst d2
        rw [ho] at ho'; cases ho'
      refine ⟨d1, key', next', e, ?_, ?_⟩
      · simp only [setJob, if_neg hkk]; exact d2
      · simp only [setJob, if_neg hkk]; exact d3
  | finish k r hk hp =>
    have hr : outcome opened start k = r := by
      unfold outcome
      rw [← h.prog k hk, hp]
      rfl
    refine ⟨⟨hist, ?_⟩, Or.inr ?_⟩
    · refine ⟨?_, ?_, ?_, ?_, h.shut, ?_, h.views⟩
      · exact List.Nodup.sublist (List.Sublist.append_left List.erase_sublist _) h.nodup
      · intro k' hk'; exact h.prog k' (List.mem_of_mem_erase hk')
      · intro k' hk'; exact h.wait k' (List.mem_of_mem_erase hk')
      · intro k' hk'; exact h.inside k' (List.mem_of_mem_erase hk')
      · intro p s0 ho
        obtain ⟨fs, a, c, d⟩ := h.file p s0 ho
        refine ⟨fs, a, c, ?_⟩
        intro k' hk'
        obtain ⟨d1, key', next', e, d2, d3⟩ := d k' hk'
        have hkk : k' ≠ k := by
          rintro rfl
          rw [hp] at d2; cases d2
        exact ⟨(List.mem_erase_of_ne hkk).2 d1, key', next', e, d2, d3⟩
    · have := Merge.Step.finish (n := n) (job := outcome opened start) s.base k hk
      rw [hr] at this
      exact this
  | see k h1 h2 hh => exact ⟨⟨hist, h.main _ rfl h.nodup⟩, Or.inr (.see s.base k h1 h2 hh)⟩
  | fail k e h1 h2 hh => exact ⟨⟨hist, h.main _ rfl h.nodup⟩, Or.inr (.fail s.base k e h1 h2 hh)⟩
  | cancel k h1 hh =>
    refine ⟨⟨hist, h.main _ rfl ?_⟩, Or.inr (.cancel s.base k h1 hh)⟩
    exact List.Nodup.sublist (List.Sublist.append_right (List.Sublist.append_left List.erase_sublist _) _) h.nodup

theorem inv_start {keys : List Str} (hk : keys.Nodup) (jobs : Str → Job V) :
    Inv opened start (init keys opened jobs) fun _ => [] := by
  refine ⟨by simpa [init, Merge.init] using hk, ?_, ?_, ?_, ?_, ?_, ?_⟩
  · intro k hk; cases hk
  · intro k hk; cases hk
  · intro k hk; cases hk
  · intro p hp; simp [init, hp]
  · intro p s0 ho
    refine ⟨⟨s0, 8 + s0.headerSize, none⟩, by simp [init, ho], fun _ => rfl, ?_⟩
    intro k hk; cases hk
  · intro p key v hx; cases hx

theorem inv_steps {keys : List Str} (hk : keys.Nodup) (hop : Opened opened) {jobs : Str → Job V} {n : ℕ} {s : TState V}
    (hs : Steps n start (init keys opened jobs) s) : (∃ hist, Inv opened start s hist) ∧
      Merge.Spec.Steps n (outcome opened start) (Merge.init keys) s.base := by
  generalize h0 : init keys opened jobs = s0 at hs
  induction hs with
  | refl => subst h0; exact ⟨⟨_, inv_start hk jobs⟩, .refl _⟩
  | step _ h' ih =>
    obtain ⟨⟨hist, h1⟩, h2⟩ := ih
    obtain ⟨h3, h4⟩ := h1.step hop h'
    refine ⟨h3, ?_⟩
    rcases h4 with h4 | h4
    · rw [h4]; exact h2
    · exact h2.step h4

/-! ### Nothing gets stuck -/

theorem progress {keys : List Str} (hk : keys.Nodup) (hop : Opened opened) {jobs : Str → Job V} {n : ℕ} (hn : 0 < n) {s : TState V}
    (hs : Steps n start (init keys opened jobs) s) (ho : s.base.over = none) : ∃ t, Step n start s t := by
  obtain ⟨⟨hist, h⟩, _⟩ := inv_steps hk hop hs
  -- a job outside of any lock it would have to wait for can go on
  have can : ∀ k ∈ s.base.running, ∀ p key next, (s.jobs k).prog = .load p key next → ∀ fs, s.files p = some fs →
      loadStep k key fs (s.jobs k).pc ≠ none → ∃ t, Step n start s t := by
    intro k hk' p key next hp fs hf hne
    cases hl : loadStep k key fs (s.jobs k).pc with
    | none => exact absurd hl hne
    | some q =>
      obtain ⟨fs', nx⟩ := q
      cases nx with
      | go pc => exact ⟨_, .goes s k p key next fs fs' pc hk' hp hf hl⟩
      | made v pc => exact ⟨_, .makes s k p key next fs fs' v pc hk' hp hf hl⟩
      | answer r => exact ⟨_, .answers s k p key next fs fs' r hk' hp hf hl⟩
  have all : ∀ k ∈ s.base.running, ∃ t, Step n start s t := by
    intro k hk'
    cases hp : (s.jobs k).prog with
    | ret r => exact ⟨_, .finish s k r hk' hp⟩
    | load p key next =>
      cases hf : s.files p with
      | none => exact ⟨_, .closed s k p key next hk' hp hf⟩
      | some fs =>
        by_cases hl : loadStep k key fs (s.jobs k).pc = none
        · -- waiting: the holder of the lock can go on
          obtain ⟨s0, ho', _⟩ := h.own hk' hp hf
          have hlock : ∃ k', fs.lock = some k' := by
            cases hpc : (s.jobs k).pc with
            | wait e =>
              rw [hpc] at hl
              simp only [loadStep] at hl
              split_ifs at hl with hx
              exact Option.isSome_iff_exists.1 hx
            | idle =>
              rw [hpc] at hl
              simp only [loadStep] at hl
              split at hl
              · split_ifs at hl
              · cases hl
            | view e =>
              rw [hpc] at hl
              simp only [loadStep] at hl
              split at hl <;> cases hl
            | check e => rw [hpc] at hl; simp [loadStep] at hl
            | seek e => rw [hpc] at hl; simp [loadStep] at hl
            | alloc e => rw [hpc] at hl; simp [loadStep] at hl
            | fill e => rw [hpc] at hl; simp [loadStep] at hl
            | offset e => rw [hpc] at hl; simp [loadStep] at hl
            | release r => rw [hpc] at hl; simp [loadStep] at hl
          obtain ⟨k', hk2⟩ := hlock
          obtain ⟨fs1, a, _, d⟩ := h.file p s0 ho'
          rw [hf] at a
          cases a
          obtain ⟨d1, key', next', e, d2, _, _, _, d3⟩ := d k' hk2
          refine can k' d1 p key' next' d2 fs hf ?_
          intro hx
          cases hpc : (s.jobs k').pc with
          | wait e => rw [hpc] at d3; exact d3.elim
          | idle => rw [hpc] at d3; exact d3.elim
          | view e =>
            rw [hpc] at hx
            simp only [loadStep] at hx
            split at hx <;> cases hx
          | check e => rw [hpc] at hx; simp [loadStep] at hx
          | seek e => rw [hpc] at hx; simp [loadStep] at hx
          | alloc e => rw [hpc] at hx; simp [loadStep] at hx
          | fill e => rw [hpc] at hx; simp [loadStep] at hx
          | offset e => rw [hpc] at hx; simp [loadStep] at hx
          | release r => rw [hpc] at hx; simp [loadStep] at hx
        · exact can k hk' p key next hp fs hf hl
  cases hrun : s.base.running with
  | cons k l => exact all k (by rw [hrun]; exact List.mem_cons_self)
  | nil =>
    obtain ⟨t, ht⟩ := Merge.progress hn (job := outcome opened start) ho
    cases ht with
    | submit k ks hh => exact ⟨_, .submit s k ks hh⟩
    | start k q hh hn => exact ⟨_, .start s k q hh hn⟩
    | finish k hh => rw [hrun] at hh; cases hh
    | see k h1 h2 hh => exact ⟨_, .see s k h1 h2 hh⟩
    | fail k e h1 h2 hh => exact ⟨_, .fail s k e h1 h2 hh⟩
    | cancel k h1 hh => exact ⟨_, .cancel s k h1 hh⟩

/-! ### Every execution ends -/

/-- A load answers what the file stores. -/
theorem Inv.answer {s : TState V} {hist : Str → List Key} (h : Inv opened start s hist) (hop : Opened opened) {k p : Str} {key : Key}
    {next : Except Err Tensor → Prog Tensor (Except Err V)} {fs fs' : FState} {r : Except Err Tensor} (hk : k ∈ s.base.running)
    (hp : (s.jobs k).prog = .load p key next) (hf : s.files p = some fs)
    (hs : loadStep k key fs (s.jobs k).pc = some (fs', .answer r)) : stored opened p key = r := by
  obtain ⟨s0, ho, hnone, hin, hout, hmid⟩ := h.own hk hp hf
  have hfr := fresh_of hop ho
  have hhd := header_of hop ho hnone hmid
  cases hpc : (s.jobs k).pc with
  | idle =>
    rw [hpc] at hs
    simp only [loadStep, hhd] at hs
    split at hs
    · rename_i e he
      have hv := hfr.valid key e he
      have hw : 0 < Safetensors.width e.dtype := by cases e.dtype <;> decide
      split_ifs at hs with h1 h2 h3 h4
      · simp only [Option.some.injEq, Prod.mk.injEq, Next.answer.injEq] at hs
        obtain ⟨_, rfl⟩ := hs
        unfold stored; simp only [ho, if_pos h1]
      · exact absurd h2 (by have := hv.ordered; omega)
      · simp only [Option.some.injEq, Prod.mk.injEq, Next.answer.injEq] at hs
        obtain ⟨_, rfl⟩ := hs
        rw [stored_eq ho he h1, Overwrite.Spec.tensorAt, StreamIn.Spec.bytesOf, h3, List.take_zero]
      · have hz := hv.size
        rw [h3] at hz
        rcases Nat.mul_eq_zero.1 hz.symm with h | h
        · exact absurd h h4
        · omega
      · simp at hs
    · rename_i hno
      simp only [Option.some.injEq, Prod.mk.injEq, Next.answer.injEq] at hs
      obtain ⟨_, rfl⟩ := hs
      unfold stored
      simp only [ho]
      split_ifs with hz
      · rfl
      · cases hg : s0.header.get? key with
        | none => rfl
        | some v =>
          cases v with
          | tensor e => exact absurd hg (hno e)
          | metadata m => rfl
  | wait e =>
    rw [hpc] at hs
    simp only [loadStep] at hs
    split_ifs at hs
    simp at hs
  | view e =>
    rw [hpc] at hs
    simp only [loadStep] at hs
    split at hs <;> simp at hs
  | release r' =>
    obtain ⟨hl, e', he, hm, hse, hmd⟩ := hin (by rw [hpc]; trivial)
    rw [hpc] at hs hmd
    simp only [loadStep, Option.some.injEq, Prod.mk.injEq, Next.answer.injEq] at hs
    rw [← hs.2]
    exact hmd.2.symm
  | check e => rw [hpc] at hs; simp [loadStep] at hs
  | seek e => rw [hpc] at hs; simp [loadStep] at hs
  | alloc e => rw [hpc] at hs; simp [loadStep] at hs
  | fill e => rw [hpc] at hs; simp [loadStep] at hs
  | offset e => rw [hpc] at hs; simp [loadStep] at hs

/-- Statements left of a load -/
def rank : Pc → ℕ
  | .idle => 9 | .wait _ => 8 | .check _ => 7 | .seek _ => 6 | .alloc _ => 5 | .fill _ => 4 | .offset _ => 3 | .view _ => 2 | .release _ => 1

theorem rank_go {me : Str} {key : Key} {fs fs' : FState} {pc pc' : Pc} (h : loadStep me key fs pc = some (fs', .go pc')) :
    rank pc' < rank pc := by
  cases pc with
  | idle =>
    simp only [loadStep] at h
    split at h
    · split_ifs at h <;> simp at h
      rw [← h.2]; simp [rank]
    · simp at h
  | wait e =>
    simp only [loadStep] at h
    split_ifs at h
    simp at h
    rw [← h.2]; simp [rank]
  | check e =>
    simp only [loadStep, Option.some.injEq, Prod.mk.injEq, Next.go.injEq] at h
    rw [← h.2]
    split_ifs <;> simp [rank]
  | view e =>
    simp only [loadStep] at h
    split at h <;> simp at h
    rw [← h.2]; simp [rank]
  | release r => simp [loadStep] at h
  | seek e => simp [loadStep] at h; rw [← h.2]; simp [rank]
  | alloc e => simp [loadStep] at h; rw [← h.2]; simp [rank]
  | fill e => simp [loadStep] at h; rw [← h.2]; simp [rank]
  | offset e => simp [loadStep] at h; rw [← h.2]; simp [rank]

theorem rank_made {me : Str} {key : Key} {fs fs' : FState} {pc pc' : Pc} {v : StreamIn.View}
    (h : loadStep me key fs pc = some (fs', .made v pc')) : rank pc' < rank pc := by
  cases pc with
  | idle =>
    simp only [loadStep] at h
    split at h
    · split_ifs at h <;> simp at h
    · simp at h
  | wait e =>
    simp only [loadStep] at h
    split_ifs at h
    simp at h
  | view e =>
    simp only [loadStep] at h
    split at h <;> simp at h
    rw [← h.2.2]; simp [rank]
  | check e => simp [loadStep] at h
  | release r => simp [loadStep] at h
  | seek e => simp [loadStep] at h
  | alloc e => simp [loadStep] at h
  | fill e => simp [loadStep] at h
  | offset e => simp [loadStep] at h

theorem rank_pos (pc : Pc) : 0 < rank pc := by cases pc <;> simp [rank]

/-- Statements left of a job -/
def cost (opened : Str → Option StreamIn.State) (j : Job V) : ℕ :=
  match j.prog with
  | .ret _ => 0
  | .load p k next => rank j.pc + 9 * loads (stored opened) (next (stored opened p k))

theorem cost_idle (pr : Prog Tensor (Except Err V)) : cost opened ⟨pr, .idle⟩ = 9 * loads (stored opened) pr := by
  cases pr with
  | ret r => rfl
  | load p k next => simp only [cost, loads, rank]; omega

/-- Steps left at most -/
def measure (opened : Str → Option StreamIn.State) (start : Str → Prog Tensor (Except Err V)) (s : TState V) : ℕ :=
  Merge.left s.base + ((s.base.toSubmit ++ s.base.queue).map fun k => 9 * loads (stored opened) (start k)).sum +
    (s.base.running.map fun k => cost opened (s.jobs k)).sum

theorem sum_lt {l : List Str} {f g : Str → ℕ} (h1 : ∀ x ∈ l, f x ≤ g x) (h2 : ∃ x ∈ l, f x < g x) : (l.map f).sum < (l.map g).sum := by
  have le : ∀ l : List Str, (∀ x ∈ l, f x ≤ g x) → (l.map f).sum ≤ (l.map g).sum := by
    intro l
    induction l with
    | nil => intro _; exact Nat.le_refl _
    | cons x l ih =>
      intro h
      have a := h x List.mem_cons_self
      have b := ih fun y hy => h y (List.mem_cons_of_mem _ hy)
      simp only [List.map_cons, List.sum_cons]
      omega
  induction l with
  | nil => obtain ⟨x, hx, _⟩ := h2; cases hx
  | cons x l ih =>
    have a := h1 x List.mem_cons_self
    have h1' : ∀ y ∈ l, f y ≤ g y := fun y hy => h1 y (List.mem_cons_of_mem _ hy)
    have b := le l h1'
    simp only [List.map_cons, List.sum_cons]
    obtain ⟨y, hy, hlt⟩ := h2
    rcases List.mem_cons.1 hy with rfl | hy
    · omega
    · have := ih h1' ⟨y, hy, hlt⟩
      omega

theorem sum_sublist {l l' : List ℕ} (h : l.Sublist l') : l.sum ≤ l'.sum := by
  induction h with
  | slnil => exact Nat.le_refl _
  | cons a _ ih => simp only [List.sum_cons]; omega
  | cons_cons a _ ih => simp only [List.sum_cons]; omega

theorem sum_setJob {l : List Str} {k : Str} (hk : k ∈ l) {jobs : Str → Job V} {j : Job V} (h : cost opened j < cost opened (jobs k)) :
    (l.map fun k' => cost opened (setJob jobs k j k')).sum < (l.map fun k' => cost opened (jobs k')).sum := by
  refine sum_lt ?_ ⟨k, hk, by simp only [setJob, if_true]; exact h⟩
  intro k' _
  by_cases hkk : k' = k
  · subst hkk; simp only [setJob, if_true]; omega
  · simp only [setJob, if_neg hkk]; omega

theorem measure_step {s t : TState V} {hist : Str → List Key} {n : ℕ} (h : Inv opened start s hist) (hop : Opened opened)
    (hs : Step n start s t) : measure opened start t < measure opened start s := by
  have hbase := (h.step hop hs).2
  unfold measure
  cases hs with
  | submit k ks hh =>
    have h2 := hbase.resolve_left (fun hx => by
      have := congrArg Merge.State.toSubmit hx
      simp only [hh] at this
      exact absurd (congrArg List.length this) (by simp))
    have := Merge.left_step h2
    simp only [hh, List.map_append, List.sum_append, List.map_cons, List.sum_cons, List.map_nil, List.sum_nil] at this ⊢
    omega
  | start k q hh hn =>
    have h2 := hbase.resolve_left (fun hx => by
      have := congrArg Merge.State.queue hx
      simp only [hh] at this
      exact absurd (congrArg List.length this) (by simp))
    have := Merge.left_step h2
    have hnd := h.nodup
    rw [hh] at hnd
    have hnot : k ∉ s.base.running := by
      intro hk
      rw [List.append_assoc] at hnd
      have := (List.nodup_append.1 hnd).2.1
      simp only [List.cons_append, List.nodup_cons] at this
      exact this.1 (List.mem_append_right _ hk)
    have hsame : (s.base.running.map fun k' => cost opened (setJob s.jobs k ⟨start k, .idle⟩ k')) =
        s.base.running.map fun k' => cost opened (s.jobs k') := by
      apply List.map_congr_left
      intro k' hk'
      have : k' ≠ k := by rintro rfl; exact hnot hk'
      simp only [setJob, if_neg this]
    simp only [hh, List.map_append, List.sum_append, List.map_cons, List.sum_cons, List.map_nil, List.sum_nil, hsame] at this ⊢
    simp only [setJob, if_true, cost_idle]
    omega
  | goes k p key next fs fs' pc hk hp hf hl =>
    have := sum_setJob (opened := opened) hk (jobs := s.jobs) (j := ⟨(s.jobs k).prog, pc⟩) (by
      simp only [cost, hp]
      have := rank_go hl
      omega)
    simp only at this ⊢
    omega
  | makes k p key next fs fs' v pc hk hp hf hl =>
    have := sum_setJob (opened := opened) hk (jobs := s.jobs) (j := ⟨(s.jobs k).prog, pc⟩) (by
      simp only [cost, hp]
      have := rank_made hl
      omega)
    simp only at this ⊢
    omega
  | answers k p key next fs fs' r hk hp hf hl =>
    have hr := h.answer hop hk hp hf hl
    have := sum_setJob (opened := opened) hk (jobs := s.jobs) (j := ⟨next r, .idle⟩) (by
      rw [cost_idle]
      simp only [cost, hp, hr]
      have := rank_pos (s.jobs k).pc
      omega)
    simp only at this ⊢
    omega
  | closed k p key next hk hp hf =>
    have ho : opened p = none := by
      cases ho : opened p with
      | none => rfl
      | some s0 =>
        obtain ⟨fs, a, _⟩ := h.file p s0 ho
        rw [hf] at a; cases a
    have hr : stored opened p key = .error .type := by simp only [stored, ho]
    have := sum_setJob (opened := opened) hk (jobs := s.jobs) (j := ⟨next (.error .type), .idle⟩) (by
      rw [cost_idle]
      simp only [cost, hp, hr]
      have := rank_pos (s.jobs k).pc
      omega)
    simp only at this ⊢
    omega
  | finish k r hk hp =>
    have h2 := hbase.resolve_left (fun hx => by
      have := congrArg Merge.State.done hx
      exact absurd (congrArg List.length this) (by simp))
    have := Merge.left_step h2
    have hsub : ((s.base.running.erase k).map fun k' => cost opened (s.jobs k')).sum ≤
        (s.base.running.map fun k' => cost opened (s.jobs k')).sum :=
      sum_sublist (List.erase_sublist.map _)
    simp only at this ⊢
    omega
  | see k h1 h2 hh =>
    have h2 := hbase.resolve_left (fun hx => by
      have := congrArg (fun b => b.done.length) hx
      simp only [List.length_erase_of_mem hh] at this
      have := List.length_pos_of_mem hh
      omega)
    have := Merge.left_step h2
    simp only at this ⊢
    omega
  | fail k e h1 h2 hh =>
    have h2 := hbase.resolve_left (fun hx => by
      have := congrArg Merge.State.raising hx
      rw [h2] at this; cases this)
    have := Merge.left_step h2
    simp only at this ⊢
    omega
  | cancel k h1 hh =>
    have h2 := hbase.resolve_left (fun hx => by
      have := congrArg (fun b => b.queue.length) hx
      simp only [List.length_erase_of_mem hh] at this
      have := List.length_pos_of_mem hh
      omega)
    have := Merge.left_step h2
    have hsub : ((s.base.toSubmit ++ s.base.queue.erase k).map fun k' => 9 * loads (stored opened) (start k')).sum ≤
        ((s.base.toSubmit ++ s.base.queue).map fun k' => 9 * loads (stored opened) (start k')).sum :=
      sum_sublist ((List.Sublist.append_left List.erase_sublist _).map _)
    simp only at this ⊢
    omega

/-! ### `threads=0` -/

/-- Files that were only loaded from -/
def Loaded (opened files : Str → Option StreamIn.State) : Prop :=
  ∀ p, match opened p with
    | none => files p = none
    | some s0 => ∃ hist, files p = some (now s0 hist)

theorem exec_value {α : Type} (hop : Opened opened) (pr : Prog Tensor α) : ∀ {files : Str → Option StreamIn.State}, Loaded opened files →
    Loaded opened (exec files pr).1 ∧ (exec files pr).2 = value (stored opened) pr := by
  induction pr with
  | ret a => intro files h; exact ⟨h, rfl⟩
  | load p key next ih =>
    intro files h
    have hp := h p
    cases ho : opened p with
    | none =>
      rw [ho] at hp
      simp only at hp
      simp only [exec, hp, value]
      rw [show stored opened p key = .error .type from by simp only [stored, ho]]
      exact ih _ h
    | some s0 =>
      rw [ho] at hp
      obtain ⟨hist, hp⟩ := hp
      have hfr := fresh_of hop ho
      have hh := hfr.fields hist
      have step : ∀ s', (getItem (now s0 hist) key).1 = s' → Loaded opened fun p' => if p' = p then some s' else files p' := by
        intro s' hs' p'
        by_cases hpp : p' = p
        · subst hpp
          rw [ho]
          exact ⟨hist ++ [key], by simp only [if_true]; rw [now_snoc, hs']⟩
        · have := h p'
          simp only [if_neg hpp]
          exact this
      simp only [exec, hp, value]
      by_cases hm : key = metadataKey ∨ ∀ e, s0.header.get? key ≠ some (.tensor e)
      · have hg : getItem (now s0 hist) key = (now s0 hist, .error .stateDictKey) := by
          unfold getItem
          rw [hh.1]
          cases hg : s0.header.get? key with
          | none => rfl
          | some v =>
            cases v with
            | metadata m => rfl
            | tensor e =>
              rcases hm with hm | hm
              · simp [hm]
              · exact absurd hg (hm e)
        have hst : stored opened p key = .error .stateDictKey := by
          unfold stored
          simp only [ho]
          split_ifs with hz
          · rfl
          · cases hg : s0.header.get? key with
            | none => rfl
            | some v =>
              cases v with
              | metadata m => rfl
              | tensor e =>
                rcases hm with hm | hm
                · exact absurd hm hz
                · exact absurd hg (hm e)
        rw [hg, hst]
        exact ih _ (step _ (by rw [hg]))
      · simp only [not_or, not_forall, not_not] at hm
        obtain ⟨hm, e, he⟩ := hm
        obtain ⟨s', v, g1, g2⟩ := hfr.load hist he hm
        rw [g1, stored_eq ho he hm]
        simp only
        rw [g2]
        exact ih _ (step _ (by rw [g1]))

theorem sequential_value (hop : Opened opened) (keys : List Str) : ∀ {files : Str → Option StreamIn.State}, Loaded opened files →
    sequential start files keys = Merge.sequential (outcome opened start) keys := by
  induction keys with
  | nil => intro files _; rfl
  | cons k ks ih =>
    intro files h
    obtain ⟨h1, h2⟩ := exec_value hop (start k) h
    simp only [sequential, Merge.sequential]
    rw [h2]
    show (match Merge.track (outcome opened start k) with | (_, some e) => _ | (some v, none) => _ | (none, none) => _) = _
    rcases Merge.track (outcome opened start k) with ⟨_ | v, _ | e⟩ <;> simp only [ih h1]

theorem loaded_start (opened : Str → Option StreamIn.State) : Loaded opened opened := by
  intro p
  cases opened p with
  | none => rfl
  | some s0 => exact ⟨[], rfl⟩

end Verif.Threads
