import Verif.Model.Converted
import Verif.Spec.Converted
import Verif.Proofs.Lora
import Verif.Props.Ieee

/-!
# What a conversion computes
-/
namespace Verif.Converted
open Method Recipe Config Eval Eval.Spec Program Program.Spec Whole Whole.Spec Shipped Ieee Spec
open StreamOut (Tensor)
open Lora (codes)
variable {F : Type}

theorem asked_eq (c : Convert.Conv) : asked c = Convert.Spec.reads c := by cases c <;> rfl

/-- What a mapping answers for keys that are asked one after the other -/
def gather (get : Str → Res F Tensor) : List Str → Except Err (List Tensor)
  | [] => .ok []
  | k :: ks =>
    match get k with
    | .ok (.tensor t) =>
      match gather get ks with
      | .ok ts => .ok (t :: ts)
      | .error e => .error e
    | .ok _ => .error .type
    | .error e => .error e

/-- What a conversion makes of what its mapping answers -/
def converted (f : Text → Option Convert.Conv) (get : Str → Res F Tensor) (key : Str) : Res F Tensor :=
  match f (codes key) with
  | none => .error .stateDictKey
  | some c =>
    match gather get ((asked c).map str) with
    | .ok ts => (make c ts).map RVal.tensor
    | .error e => .error e

theorem result_askAll (get : Idx → Str → Res F Tensor) (g : Str → Res F Tensor) (hg : ∀ k, get (.pos 0) k = g k)
    (next : List Tensor → Except Err Tensor) : ∀ (ks : List Str) (ts : List Tensor),
    result get (askAll ks ts next) = match gather g ks with | .ok us => (next (ts ++ us)).map RVal.tensor | .error e => .error e
  | [], ts => by
    rw [askAll, result, gather]
    simp only [List.append_nil]
  | k :: ks, ts => by
    rw [askAll, result, gather, hg]
    cases hk : g k with
    | error e => rfl
    | ok v =>
      cases v with
      | tensor t =>
        simp only
        rw [result_askAll get g hg next ks (ts ++ [t])]
        cases gather g ks with
        | error e => rfl
        | ok us => simp
      | _ => rfl

theorem eval_conv (f : Text → Option Convert.Conv) (W : World F Tensor) (conv : Str) (h : W.impl conv = impl (convSource f)) (p : Str) (cl sl : Option Str)
    (key : Str) :
    eval W (.merge conv [.model p cl sl] []) key = converted f (castRun W.conv .tensor (eval W (.model p cl sl))) key := by
  have hm : ∀ args, eval W (.merge conv args []) = applyMerge W.conv (W.impl conv) args.length (evalL W 0 args ++ evalK W []) := by
    intro args; rw [eval]
  rw [hm, h]
  have hch : evalL W 0 [.model p cl sl] ++ evalK W [] = [⟨.pos 0, eval W (.model p cl sl), some 1, configOf W (.model p cl sl)⟩] := by
    rw [evalL, evalL, evalK]
    rfl
  rw [hch]
  generalize eval W (.model p cl sl) = fl
  generalize configOf W (.model p cl sl) = gl
  show result _ ((convSource f).body [.sd gl] _ key) = _
  unfold converted convSource
  simp only
  cases f (codes key) with
  | none => rfl
  | some c =>
    simp only
    rw [result_askAll _ (castRun W.conv .tensor fl) (fun k => rfl)]
    rfl

/-! ### Casting and rearranging commute -/

theorem pieces_append (w : ℕ) : ∀ (a b : ℕ) (x y : Bytes), x.length = a * w → pieces w (a + b) (x ++ y) = pieces w a x ++ pieces w b y
  | 0, b, x, y, h => by
    rw [Nat.zero_mul, List.length_eq_zero_iff] at h
    subst h
    simp [pieces]
  | a + 1, b, x, y, h => by
    rw [Nat.add_right_comm, pieces, pieces, List.cons_append]
    have hx : w ≤ x.length := by rw [h, Nat.succ_mul]; omega
    rw [List.take_append_of_le_length hx, List.drop_append_of_le_length hx, pieces_append w a b (x.drop w) y (by
      rw [List.length_drop, h, Nat.succ_mul]; omega)]

theorem numel_reverse (s : List ℕ) : numel s.reverse = numel s := by
  induction s with
  | nil => rfl
  | cons n s ih =>
    have happ : ∀ a b : List ℕ, numel (a ++ b) = numel a * numel b := by
      intro a b
      induction a with
      | nil => show numel b = 1 * numel b; rw [one_mul]
      | cons m a ih => show m * numel (a ++ b) = m * numel a * numel b; rw [ih, mul_assoc]
    rw [List.reverse_cons, happ, ih]
    show numel s * (n * 1) = n * numel s
    ring

theorem numel_append (a b : List ℕ) : numel (a ++ b) = numel a * numel b := by
  induction a with
  | nil => show numel b = 1 * numel b; rw [one_mul]
  | cons m a ih => show m * numel (a ++ b) = m * numel a * numel b; rw [ih, mul_assoc]

theorem numel_atLeast2 (s : List ℕ) : numel (atLeast2 s) = numel s ∧ atLeast2 s = (atLeast2 s).headD 0 :: (atLeast2 s).tail := by
  match s with
  | [] => exact ⟨rfl, rfl⟩
  | [n] => exact ⟨by show 1 * (n * 1) = n * 1; ring, rfl⟩
  | a :: b :: s => exact ⟨rfl, rfl⟩

/-- All entries of a tensor of one dtype turned into those of another -/
def recode (d : DType) (g : ℕ → ℕ) (t : Tensor) : Tensor := ofEntries d t.shape ((entries t).map g)

theorem entries_congr {t u : Tensor} (hd : t.dtype = u.dtype) (hs : numel t.shape = numel u.shape) (hb : t.bytes = u.bytes) : entries t = entries u := by
  unfold entries; rw [hd, hs, hb]

def Wf (t : Tensor) : Prop := t.bytes.length = numel t.shape * t.dtype.size

theorem vstack_entries {d0 : DType} {w : ℕ} (hw : d0.size = w) (tail : List ℕ) : ∀ (ts : List Tensor),
    (∀ t ∈ ts, t.dtype = d0 ∧ Wf t ∧ (atLeast2 t.shape).tail = tail) →
    (ts.flatMap (·.bytes)).length = numel ((ts.map fun u => (atLeast2 u.shape).headD 0).sum :: tail) * w ∧
    pieces w (numel ((ts.map fun u => (atLeast2 u.shape).headD 0).sum :: tail)) (ts.flatMap (·.bytes)) =
      ts.flatMap fun t => pieces w (numel t.shape) t.bytes
  | [], _ => by
    simp [numel, pieces]
  | t :: ts, h => by
    obtain ⟨h1, h2, h3⟩ := h t (by simp)
    obtain ⟨i1, i2⟩ := vstack_entries hw tail ts fun u hu => h u (by simp [hu])
    have hn : numel t.shape = (atLeast2 t.shape).headD 0 * numel tail := by
      rw [← (numel_atLeast2 t.shape).1, (numel_atLeast2 t.shape).2, h3]
      rfl
    have hb : t.bytes.length = numel t.shape * w := by rw [h2, h1, hw]
    have hsum : numel (((t :: ts).map fun u => (atLeast2 u.shape).headD 0).sum :: tail) =
        numel t.shape + numel ((ts.map fun u => (atLeast2 u.shape).headD 0).sum :: tail) := by
      rw [List.map_cons, List.sum_cons, hn]
      show (_ + _) * numel tail = _ * numel tail + _ * numel tail
      ring
    rw [hsum, List.flatMap_cons, List.flatMap_cons]
    exact ⟨by rw [List.length_append, i1, hb, Nat.add_mul], by rw [pieces_append _ _ _ _ _ hb, i2]⟩

theorem vstack_ok {t : Tensor} {ts : List Tensor} {y : Tensor} (h : vstack (t :: ts) = .ok y) :
    (∀ u ∈ t :: ts, u.dtype = t.dtype ∧ (atLeast2 u.shape).tail = (atLeast2 t.shape).tail) ∧
    y = ⟨t.dtype, ((t :: ts).map fun u => (atLeast2 u.shape).headD 0).sum :: (atLeast2 t.shape).tail, (t :: ts).flatMap (·.bytes)⟩ := by
  unfold vstack at h
  simp only at h
  split_ifs at h with hc
  refine ⟨fun u hu => ?_, (Except.ok.inj h).symm⟩
  have := List.all_eq_true.1 hc u hu
  simpa using this

theorem vstack_of {t : Tensor} {ts : List Tensor}
    (h : ∀ u ∈ t :: ts, u.dtype = t.dtype ∧ (atLeast2 u.shape).tail = (atLeast2 t.shape).tail) :
    vstack (t :: ts) = .ok ⟨t.dtype, ((t :: ts).map fun u => (atLeast2 u.shape).headD 0).sum :: (atLeast2 t.shape).tail, (t :: ts).flatMap (·.bytes)⟩ := by
  unfold vstack
  simp only
  rw [if_pos]
  exact List.all_eq_true.2 fun u hu => by simpa using h u hu

theorem make_recode (d : DType) (g : ℕ → ℕ) {d0 : DType} (c : Convert.Conv) {ts : List Tensor} {y : Tensor} (hts : ∀ t ∈ ts, t.dtype = d0 ∧ Wf t)
    (h : make c ts = .ok y) : y.dtype = d0 ∧ Wf y ∧ make c (ts.map (recode d g)) = .ok (recode d g y) := by
  have e0 : ∀ {t : Tensor} {s : List ℕ}, numel s = numel t.shape → recode d g { t with shape := s } = { recode d g t with shape := s } := by
    intro t s hs
    unfold recode ofEntries
    rw [entries_congr (t := { t with shape := s }) (u := t) rfl hs rfl]
  match c, ts, h, hts with
  | .read _, [t], h, hts =>
    cases h
    exact ⟨(hts _ (by simp)).1, (hts _ (by simp)).2, rfl⟩
  | .transposed _, [t], h, hts =>
    cases h
    refine ⟨(hts t (by simp)).1, ?_, ?_⟩
    · show t.bytes.length = numel t.shape.reverse * _
      rw [numel_reverse]
      exact (hts t (by simp)).2
    · show Except.ok (flip (recode d g t)) = _
      unfold flip
      rw [e0 (numel_reverse t.shape)]
      rfl
  | .conv1x1 _, [t], h, hts =>
    cases h
    have hn : numel (t.shape ++ [1, 1]) = numel t.shape := by rw [numel_append]; exact mul_one _
    refine ⟨?_, ?_, ?_⟩
    · unfold asConv; split_ifs <;> exact (hts t (by simp)).1
    · unfold asConv
      split_ifs
      · show t.bytes.length = numel (t.shape ++ [1, 1]) * _
        rw [hn]
        exact (hts t (by simp)).2
      · exact (hts t (by simp)).2
    · show Except.ok (asConv (recode d g t)) = _
      unfold asConv
      have hsh : (recode d g t).shape = t.shape := rfl
      rw [hsh]
      by_cases hl : t.shape.length ≠ 1
      · rw [if_pos hl, if_pos hl, e0 hn]
      · rw [if_neg hl, if_neg hl]
  | .stacked _, t :: ts, h, hts =>
    obtain ⟨h1, rfl⟩ := vstack_ok h
    have ht := hts t (by simp)
    obtain ⟨i1, i2⟩ := vstack_entries (d0 := d0) rfl (atLeast2 t.shape).tail (t :: ts) fun u hu => ⟨(hts u hu).1, (hts u hu).2, (h1 u hu).2⟩
    refine ⟨ht.1, ?_, ?_⟩
    · unfold Wf
      simp only
      rw [i1, ht.1]
    · show vstack ((t :: ts).map (recode d g)) = _
      have := vstack_of (t := recode d g t) (ts := ts.map (recode d g)) (by
        intro u hu
        rw [← List.map_cons] at hu
        obtain ⟨v, hv, rfl⟩ := List.mem_map.1 hu
        exact ⟨rfl, (h1 v hv).2⟩)
      rw [List.map_cons, this, ← List.map_cons, List.map_map]
      congr 1
      unfold recode ofEntries
      simp only [Tensor.mk.injEq]
      refine ⟨trivial, rfl, ?_⟩
      rw [List.flatMap_map]
      unfold entries
      simp only
      rw [ht.1, i2, List.map_flatMap, List.map_flatMap, List.flatMap_assoc]
      refine List.flatMap_congr fun u hu => ?_
      rw [(hts u hu).1]

theorem arranged {c : Convert.Conv} {ts : List Tensor} {y : Tensor} (h : make c ts = .ok y) : Arranged c ts y := by
  match c, ts, h with
  | .read _, [t], h => cases h; rfl
  | .transposed _, [t], h => cases h; exact ⟨t, rfl, rfl, rfl, rfl⟩
  | .conv1x1 _, [t], h =>
    cases h
    refine ⟨t, rfl, ?_⟩
    unfold asConv
    by_cases hl : t.shape.length = 1
    · rw [if_neg (by simpa using hl), if_pos hl]; exact ⟨rfl, rfl, rfl⟩
    · rw [if_pos hl, if_neg hl]; exact ⟨rfl, rfl, rfl⟩
  | .stacked _, t :: ts, h =>
    obtain ⟨h1, rfl⟩ := vstack_ok h
    refine ⟨fun u hu => ((h1 u hu).1).symm, rfl, fun ms rest hr hs => ?_, fun n hn => ?_⟩
    · obtain ⟨a, r, rfl⟩ := List.exists_cons_of_ne_nil hr
      have key : ∀ (us : List Tensor) (ms : List ℕ), us.map (·.shape) = ms.map (· :: a :: r) →
          us.map (fun u => (atLeast2 u.shape).headD 0) = ms ∧ ∀ u ∈ us, (atLeast2 u.shape).tail = a :: r := by
        intro us
        induction us with
        | nil => intro ms h; cases ms with | nil => exact ⟨rfl, by simp⟩ | cons => cases h
        | cons u us ih =>
          intro ms h
          cases ms with
          | nil => cases h
          | cons m ms =>
            rw [List.map_cons, List.map_cons, List.cons.injEq] at h
            obtain ⟨i1, i2⟩ := ih ms h.2
            have hu : atLeast2 u.shape = m :: a :: r := by rw [h.1]; rfl
            refine ⟨by rw [List.map_cons, i1, hu]; rfl, ?_⟩
            intro v hv
            rcases List.mem_cons.1 hv with rfl | hv
            · rw [hu]; rfl
            · exact i2 v hv
      obtain ⟨k1, k2⟩ := key _ _ hs
      show _ :: _ = _
      rw [k1, k2 t (by simp)]
    · have key : ∀ us : List Tensor, (∀ u ∈ us, u.shape = [n]) → (us.map (fun u => (atLeast2 u.shape).headD 0)).sum = us.length := by
        intro us
        induction us with
        | nil => intro _; rfl
        | cons u us ih =>
          intro h
          rw [List.map_cons, List.sum_cons, ih fun v hv => h v (by simp [hv]), h u (by simp), List.length_cons]
          show 1 + _ = _
          omega
      show _ :: _ = _
      rw [key _ hn, hn t (by simp)]
      rfl

end Verif.Converted
