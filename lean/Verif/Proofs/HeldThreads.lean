import Verif.Proofs.HeldBound

namespace Verif.Held
open Method Recipe Config Eval Program Held.Spec

/-- No more is let go of than is held. -/
def Fits (n : ℕ) : List Event → Prop
  | [] => True
  | .load _ _ :: es => Fits n es
  | .hold :: es => Fits (n + 1) es
  | .free m :: es => m ≤ n ∧ Fits (n - m) es

theorem after_more (es : List Event) : ∀ n c, heldAfter (n + c) es ≤ heldAfter n es + c := by
  induction es with
  | nil => intro n c; exact le_rfl
  | cons e es ih =>
    intro n c
    cases e with
    | load => exact ih n c
    | hold =>
      show heldAfter (n + c + 1) es ≤ heldAfter (n + 1) es + c
      rw [show n + c + 1 = n + 1 + c by omega]
      exact ih (n + 1) c
    | free m =>
      show heldAfter (n + c - m) es ≤ heldAfter (n - m) es + c
      by_cases h : m ≤ n
      · rw [show n + c - m = n - m + c by omega]
        exact ih _ _
      · rw [show n - m = 0 by omega]
        have := ih 0 (n + c - m)
        rw [Nat.zero_add] at this
        omega

theorem not_fits (es : List Event) : ∀ n, ¬ Fits n es → ∃ c, heldAfter (n + c) es < heldAfter n es + c := by
  induction es with
  | nil => intro n h; exact absurd trivial h
  | cons e es ih =>
    intro n h
    cases e with
    | load => exact ih n h
    | hold =>
      obtain ⟨c, hc⟩ := ih (n + 1) h
      refine ⟨c, ?_⟩
      show heldAfter (n + c + 1) es < heldAfter (n + 1) es + c
      rw [show n + c + 1 = n + 1 + c by omega]
      exact hc
    | free m =>
      by_cases hm : m ≤ n
      · obtain ⟨c, hc⟩ := ih (n - m) (fun h' => h ⟨hm, h'⟩)
        refine ⟨c, ?_⟩
        show heldAfter (n + c - m) es < heldAfter (n - m) es + c
        rw [show n + c - m = n - m + c by omega]
        exact hc
      · refine ⟨m, ?_⟩
        show heldAfter (n + m - m) es < heldAfter (n - m) es + m
        have := after_more es 0 n
        rw [Nat.zero_add] at this
        rw [show n - m = 0 by omega, show n + m - m = n by omega]
        omega

theorem fits_of_exact {es : List Event} {w : ℕ} (h : ∀ n, heldAfter n es = n + w) (n : ℕ) : Fits n es := by
  by_contra hf
  obtain ⟨c, hc⟩ := not_fits es n hf
  rw [h, h] at hc
  omega

theorem fits_append (a b : List Event) : ∀ n, Fits n a → Fits (heldAfter n a) b → Fits n (a ++ b) := by
  induction a with
  | nil => intro n _ h; exact h
  | cons e a ih =>
    intro n h h'
    cases e with
    | load => exact ih n h h'
    | hold => exact ih (n + 1) h h'
    | free m => exact ⟨h.1, ih (n - m) h.2 h'⟩

theorem interleaving_top {b : ℕ} {ts : List (List Event)} {es : List Event} (h : Interleaving ts es) : ∀ ns : List ℕ,
    List.Forall₂ (fun n t => Fits n t ∧ top n t ≤ b) ns ts → top ns.sum es ≤ ts.length * b := by
  have hsum : ∀ {ns : List ℕ} {ts : List (List Event)}, List.Forall₂ (fun n t => Fits n t ∧ top n t ≤ b) ns ts → ns.sum ≤ ts.length * b := by
    intro ns ts h
    induction h with
    | nil => simp
    | @cons n t ns ts h _ ih =>
      have := le_top t n
      have := h.2
      rw [List.sum_cons, List.length_cons, Nat.add_mul]
      omega
  induction h with
  | done ts _ => intro ns h; exact hsum h
  | step before e t after es _ ih =>
    intro ns h
    have hs := hsum h
    obtain ⟨ns1, ns2, h1, h2, rfl⟩ := forall₂_split h
    cases h2 with
    | @cons n _ ns2 _ hn h2 =>
      have hlen : (before ++ (e :: t) :: after).length = (before ++ t :: after).length := by simp
      rw [hlen] at hs ⊢
      cases e with
      | load p k => exact ih (ns1 ++ n :: ns2) (forall₂_append h1 (.cons hn h2))
      | hold =>
        have hn' : Fits (n + 1) t ∧ top (n + 1) t ≤ b := ⟨hn.1, le_trans (le_max_right _ _) hn.2⟩
        have := ih (ns1 ++ (n + 1) :: ns2) (forall₂_append h1 (.cons hn' h2))
        have e1 : (ns1 ++ (n + 1) :: ns2).sum = (ns1 ++ n :: ns2).sum + 1 := by simp only [List.sum_append, List.sum_cons]; omega
        rw [e1] at this
        exact max_le hs this
      | free m =>
        have hn' : Fits (n - m) t ∧ top (n - m) t ≤ b := ⟨hn.1.2, le_trans (le_max_right _ _) hn.2⟩
        have := ih (ns1 ++ (n - m) :: ns2) (forall₂_append h1 (.cons hn' h2))
        have e1 : (ns1 ++ (n - m) :: ns2).sum = (ns1 ++ n :: ns2).sum - m := by
          have := hn.1.1
          simp only [List.sum_append, List.sum_cons]; omega
        rw [e1] at this
        exact max_le hs this
where
  forall₂_split {A B : Type} {R : A → B → Prop} : ∀ {l : List A} {m1 m2 : List B}, List.Forall₂ R l (m1 ++ m2) →
      ∃ l1 l2, List.Forall₂ R l1 m1 ∧ List.Forall₂ R l2 m2 ∧ l = l1 ++ l2
    | l, [], m2, h => ⟨[], l, .nil, h, rfl⟩
    | _, b :: m1, m2, h => by
      cases h with
      | @cons a _ l _ h1 h2 =>
        obtain ⟨l1, l2, h3, h4, rfl⟩ := forall₂_split h2
        exact ⟨a :: l1, l2, .cons h1 h3, h4, rfl⟩

variable {F T : Type} (P : PWorld F T) (read : Str → Str → Except Err T)

theorem work_fits {k b : ℕ} {r : Val F} (hs : Simple P k r) (hn : isNode r = true) : ∀ (keys : List Str),
    (∀ key ∈ keys, (∃ x, value read (live P r key) = .ok x) ∧ AtMost b (trace read (live P r key))) → Fits 0 (work P read r keys) ∧ top 0 (work P read r keys) ≤ b
  | [], _ => ⟨trivial, Nat.zero_le _⟩
  | key :: keys, h => by
    obtain ⟨⟨x, hx⟩, hb⟩ := h key (by simp)
    rw [atMost_iff] at hb
    obtain ⟨i1, i2⟩ := work_fits hs hn keys (fun k hk => h k (by simp [hk]))
    have he := fun n => live_exact read P r hs key n x hx
    have hw : weight (fresh r) = 1 := by rw [fresh_eq, hn]; rfl
    rw [hw] at he
    have e : work P read r (key :: keys) = trace read (live P r key) ++ (.free 1 :: work P read r keys) := by
      unfold work
      rw [List.flatMap_cons, List.append_assoc]
      rfl
    rw [e]
    have hfit : Fits 1 (.free 1 :: work P read r keys) := ⟨le_rfl, i1⟩
    constructor
    · refine fits_append _ _ 0 (fits_of_exact (fun n => (he n).1) 0) ?_
      rw [(he 0).1]
      exact hfit
    · rw [(he 0).2] at hb
      rw [top_append, (he 0).1, (he 0).2]
      have h1 : 1 ≤ bound r := by
        have a := (he 0).1
        have b' := (he 0).2
        have := prefix_top (List.prefix_refl (trace read (live P r key))) 0
        omega
      refine max_le (by omega) ?_
      show max (0 + 1) (top (0 + 1 - 1) (work P read r keys)) ≤ b
      exact max_le (by omega) i2

end Verif.Held
