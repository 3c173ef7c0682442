import Verif.Spec.FailedSave
import Verif.Proofs.StreamOutFile

/-!
# Closing while workers stand still
-/
namespace Verif.FailedSave
open StreamOut StreamOut.Spec Spec

/-- Everything but the threads' states agrees. -/
structure Same (a b : State) : Prop where
  file : a.file = b.file
  header : a.header = b.header
  flushed : a.flushedSize = b.flushedSize
  minBuf : a.minBuf = b.minBuf
  maxHeader : a.maxHeader = b.maxHeader
  cap : a.cap = b.cap

theorem finishFile_same {a b : State} (h : Same a b) : finishFile a = finishFile b := by
  obtain ⟨h1, h2, h3, h4, h5, h6⟩ := h
  unfold finishFile
  rw [h1, h2, h3, h4, h5, h6]

theorem length_set {κ ν : Type} [DecidableEq κ] {d : Dict κ ν} {k : κ} {v w : ν} (h : d.get? k = some w) :
    (d.set k v).length = d.length := by
  have h1 := Dict.keys_set d k v
  have hk : k ∈ d.keys := List.mem_map.2 ⟨_, Dict.mem_of_get? h, rfl⟩
  rw [if_pos hk] at h1
  have := congrArg List.length h1
  simpa [Dict.keys] using this

/-- What the rest of `close` yields if only the main thread runs. -/
def Yields (c : CState) (r : Except Err Bytes) : Prop :=
  match c.main with
  | .next n rest => c.out.threads.length = n ∧ rest.Nodup ∧ ∃ (th : List TState) (f : State), rest.map c.out.threads.get? = th.map some ∧
      Same c.out f ∧ r = finishFile (th.foldl flushClose f)
  | .wrote n tid rest => c.out.threads.length = n ∧ (tid :: rest).Nodup ∧ ∃ (ts : TState) (th : List TState) (f : State), c.out.threads.get? tid = some ts ∧
      rest.map c.out.threads.get? = th.map some ∧
      Same c.out { f with file := rawWrite f.cap f.file (ts.buffer.take ts.used) } ∧
      r = finishFile (th.foldl flushClose (flushClose f ts))
  | .counted n off tid rest => c.out.threads.length = n ∧ (tid :: rest).Nodup ∧ ∃ (ts ts' : TState) (th : List TState) (f : State),
      c.out.threads.get? tid = some ts' ∧ ts'.sub = ts.sub ∧ off = f.flushedSize ∧
      rest.map c.out.threads.get? = th.map some ∧
      Same c.out { f with
        file := rawWrite f.cap f.file (ts.buffer.take ts.used), flushedSize := f.flushedSize + ts.used } ∧
      r = finishFile (th.foldl flushClose (flushClose f ts))
  | .closed r' => r' = r

theorem map_get_set {d : Dict ℕ TState} {tid : ℕ} {ts : TState} {rest : List ℕ} (h : tid ∉ rest) :
    rest.map (d.set tid ts).get? = rest.map d.get? := by
  apply List.map_congr_left
  intro x hx
  exact Dict.get?_set_ne d ts (fun he => h (he ▸ hx))

theorem mainStep_yields {c c' : CState} {r : Except Err Bytes} (h : mainStep c = some c') (hy : Yields c r) : Yields c' r := by
  obtain ⟨out, m⟩ := c
  unfold mainStep at h
  cases m with
  | next n rest =>
    obtain ⟨h1, h2, th, f, h3, h4, h5⟩ := hy
    simp only at h h1 h3 h4
    rw [if_neg (by simpa using h1)] at h
    cases rest with
    | nil =>
      obtain rfl : th = [] := by simpa using h3.symm
      simp only [Option.some.injEq] at h
      subst h
      show finishFile out = r
      rw [h5]
      exact finishFile_same h4
    | cons tid rest =>
      cases th with
      | nil => simp at h3
      | cons ts th =>
        simp only [List.map_cons, List.cons.injEq] at h3
        simp only [h3.1, Option.some.injEq] at h
        subst h
        refine ⟨h1, h2, ts, th, f, h3.1, h3.2, ⟨?_, h4.header, h4.flushed, h4.minBuf, h4.maxHeader, h4.cap⟩, h5⟩
        simp only [h4.file, h4.cap]
  | wrote n tid rest =>
    obtain ⟨h1, h2, ts, th, f, h3, h4, h5, h6⟩ := hy
    simp only at h h1 h3 h4 h5
    simp only [h3, Option.some.injEq] at h
    subst h
    rw [List.nodup_cons] at h2
    refine ⟨by simpa only [length_set h3] using h1, List.nodup_cons.2 h2, ts, { ts with used := 0 }, th, f,
      Dict.get?_set_self _ _ _, rfl, h5.flushed, ?_, ⟨h5.file, h5.header, ?_, h5.minBuf, h5.maxHeader, h5.cap⟩, h6⟩
    · simp only [map_get_set h2.1]; exact h4
    · simp only [h5.flushed]
  | counted n off tid rest =>
    obtain ⟨h1, h2, ts, ts', th, f, h3, h3', h3'', h4, h5, h6⟩ := hy
    simp only at h h1 h3 h4 h5
    simp only [h3, Option.some.injEq] at h
    subst h
    rw [List.nodup_cons] at h2
    refine ⟨by simpa only [length_set h3] using h1, h2.2, th, flushClose f ts, ?_,
      ⟨h5.file, ?_, h5.flushed, h5.minBuf, h5.maxHeader, h5.cap⟩, h6⟩
    · simp only [map_get_set h2.1]; exact h4
    · simp only [h5.header, h3', h3'']; rfl
  | closed r' => cases h

theorem crun_yields {acts : List CAction} (ha : ∀ a ∈ acts, a = .main) {c c' : CState} {r : Except Err Bytes}
    (h : crun c acts = some c') (hy : Yields c r) : Yields c' r := by
  induction acts generalizing c with
  | nil => simp only [crun, Option.some.injEq] at h; subst h; exact hy
  | cons a acts ih =>
    obtain rfl := ha a (by simp)
    simp only [crun, cstep] at h
    cases hm : mainStep c with
    | none => rw [hm] at h; cases h
    | some c1 =>
      rw [hm] at h
      exact ih (fun a h => ha a (by simp [h])) h (mainStep_yields hm hy)

theorem start_yields {s : State} (hnd : s.threads.keys.Nodup) : Yields (startClose s) (close s) := by
  refine ⟨rfl, hnd, s.threads.map (·.2), s, ?_, ⟨rfl, rfl, rfl, rfl, rfl, rfl⟩, rfl⟩
  simp only [startClose, Dict.keys, List.map_map]
  apply List.map_congr_left
  intro p hp
  exact (Dict.get?_eq_some_iff hnd).2 hp

/-- If only the main thread runs, `close` is the `close` of Verif/Model/StreamOut.lean. -/
theorem alone {s : State} (hnd : s.threads.keys.Nodup) {acts : List CAction} (ha : ∀ a ∈ acts, a = .main) {out : State}
    {r : Except Err Bytes} (h : crun (startClose s) acts = some ⟨out, .closed r⟩) : r = close s :=
  crun_yields ha h (start_yields hnd)

/-! ## Threads waiting for the lock -/

theorem closeFold_listed {s0 : State} {bound : ℕ} (hcap : max s0.minBuf bound ≤ s0.cap)
    (loc : ℕ → Log) (Lg0 : Log) (th : List (ℕ × TState))
    (hT : ∀ p ∈ th, TInv s0.minBuf bound Lg0 p.2 (loc p.1) ∧ ∀ off k t, p.2.pc ≠ .flushed off k t)
    {s : State} {Lg : Log} (hF : Flat s0 s Lg) :
    Flat s0 ((th.map (·.2)).foldl flushClose s) (Lg ++ th.flatMap fun p => loc p.1) := by
  induction th generalizing s Lg with
  | nil => simpa using hF
  | cons p th ih =>
    obtain ⟨hT1, hl⟩ := hT p (by simp)
    obtain ⟨hb1, hb2, hb3⟩ := hT1.buf hl
    have hc : (p.2.buffer.take p.2.used).length ≤ s0.cap := by
      have := hT1.leBound
      simp; omega
    have h1 := flushClose_flat hF hb1 hb3 hT1.sub hc
    have h2 := ih (fun q hq => hT q (by simp [hq])) h1
    simp only [List.map_cons, List.foldl_cons, List.flatMap_cons]
    rw [← List.append_assoc]
    exact h2

theorem flatMap_split (loc : ℕ → Log) (th : List (ℕ × TState)) (hl : ∀ p ∈ th, ∀ off k t, p.2.pc ≠ .flushed off k t) :
    (th.flatMap fun p => localOf p.2 (loc p.1)).Perm
      ((th.flatMap fun p => loc p.1) ++
        th.filterMap fun p => match p.2.pc with | .waitLock k t => some (k, t) | _ => none) := by
  induction th with
  | nil => exact .refl _
  | cons p th ih =>
    have ih := ih (fun q hq => hl q (by simp [hq]))
    have hp := hl p (by simp)
    simp only [List.flatMap_cons]
    unfold localOf at ih ⊢
    cases hpc : p.2.pc with
    | idle =>
      rw [List.filterMap_cons_none (by simp only [hpc])]
      rw [List.append_assoc]
      exact ih.append_left _
    | waitLock k t =>
      rw [List.filterMap_cons_some (b := (k, t)) (by simp only [hpc])]
      simp only [List.append_assoc, List.singleton_append]
      refine (ih.cons (k, t)).append_left _ |>.trans ?_
      exact List.Perm.append_left _ List.perm_middle.symm
    | flushed off k t => exact absurd hpc (hp off k t)

theorem listed_facts {declared recipe minBuf cap} {as : List Action} {s : State} {file : Bytes}
    (hrun : run (init declared recipe minBuf cap) as = some s) (hl : Listed s)
    (hc : Complete declared recipe minBuf cap (stored as)) (hclose : close s = .ok file) :
    ∃ Lg h hb, (stored as).Perm (Lg ++ waiting s) ∧ FileFacts recipe Lg file Lg h hb := by
  have hcap : max (init declared recipe minBuf cap).minBuf cap ≤ (init declared recipe minBuf cap).cap := by
    have := hc.buffer; simp only [init]; omega
  obtain ⟨Lg, loc, hI⟩ := run_inv hcap as hc.tensor (init_inv declared recipe minBuf cap cap) hrun
  have hF0 : Flat (init declared recipe minBuf cap) s Lg := by
    refine ⟨hI.minBuf, hI.maxHeader, hI.cap, hI.flushed, hI.pos, hI.content, hI.hnd, hI.hmem, hI.hold, ?_, hI.hkeep⟩
    intro k hk
    rcases hI.hcov k hk with h | ⟨tid, ts, off, k', t', h1, h2, h3⟩
    · exact h
    · exact absurd h2 (hl (tid, ts) (Dict.mem_of_get? h1) off k' t')
  have hF := closeFold_listed hcap loc Lg s.threads
    (fun p hp => ⟨hI.thr p.1 p.2 ((Dict.get?_eq_some_iff hI.tnd).2 hp), hl p hp⟩) hF0
  obtain ⟨h, hb, F⟩ := flat_facts hF hc.eight hc.header hclose
  refine ⟨_, h, hb, ?_, F⟩
  rw [List.append_assoc]
  have hp : (stored as).Perm (Lg ++ s.threads.flatMap fun p => localOf p.2 (loc p.1)) := by simpa using hI.perm
  exact hp.trans ((flatMap_split loc s.threads hl).append_left _)

theorem threads_nodup {declared recipe minBuf cap} {as : List Action} {s : State}
    (hrun : run (init declared recipe minBuf cap) as = some s)
    (hc : Complete declared recipe minBuf cap (stored as)) : s.threads.keys.Nodup := by
  have hcap : max (init declared recipe minBuf cap).minBuf cap ≤ (init declared recipe minBuf cap).cap := by
    have := hc.buffer; simp only [init]; omega
  obtain ⟨Lg, loc, hI⟩ := run_inv hcap as hc.tensor (init_inv declared recipe minBuf cap cap) hrun
  exact hI.tnd

end Verif.FailedSave
