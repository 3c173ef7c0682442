import Verif.Spec.Lora
import Verif.Props.Lycoris
import Verif.Proofs.ReadmeEval

/-!
# What a merge with a LoRA computes
-/
namespace Verif.Lora
open Method Recipe Config Eval Eval.Spec Program Program.Spec Whole Whole.Spec Spec Shipped
variable {F V : Type}

theorem str_codes (s : Str) : str (codes s) = s := by
  unfold str codes
  rw [List.map_map]
  conv_rhs => rw [← List.map_id s]
  exact List.map_congr_left fun c _ => Char.ofNat_toNat c

theorem codes_inj : Function.Injective codes := fun a b h => by rw [← str_codes a, ← str_codes b, h]

theorem codes_append (a b : Str) : codes (a ++ b) = codes a ++ codes b := List.map_append

theorem suffix_codes {a b : Str} : codes a <:+ codes b ↔ a <:+ b := by
  constructor
  · rintro ⟨t, ht⟩
    have := congrArg str ht
    unfold str at this
    rw [List.map_append] at this
    change _ ++ str (codes a) = str (codes b) at this
    rw [str_codes, str_codes] at this
    exact ⟨_, this⟩
  · rintro ⟨t, rfl⟩
    exact ⟨codes t, (codes_append t a).symm⟩

theorem module_codes (key : Str) : str (Lycoris.Spec.module (key% "lora") (codes key)) = module key := by
  have h1 : codes key = key% "weight" ↔ key = "weight".toList :=
    ⟨fun h => codes_inj (h.trans (by decide)), fun h => by rw [h]; decide⟩
  have h2 : key% ".weight" <:+ codes key ↔ ".weight".toList <:+ key := by
    rw [← suffix_codes, show codes ".weight".toList = key% ".weight" by decide]
  have h3 : ∀ s : Str, (codes s).map (fun c => if c = 46 then 95 else c) = codes (s.map fun c => if c = '.' then '_' else c) := by
    intro s
    unfold codes
    rw [List.map_map, List.map_map]
    refine List.map_congr_left fun c _ => ?_
    show (if c.toNat = 46 then 95 else c.toNat) = (if c = '.' then '_' else c).toNat
    by_cases hc : c = '.'
    · rw [if_pos hc, hc]; rfl
    · rw [if_neg hc, if_neg]
      intro h
      exact hc (by rw [← Char.ofNat_toNat c, h])
  have h4 : (if codes key = key% "weight" then [] else if key% ".weight" <:+ codes key then (codes key).take ((codes key).length - 7) else codes key) =
      codes (stem key) := by
    unfold stem
    simp only [h1, h2]
    split_ifs
    · rfl
    · unfold codes; rw [List.length_map, List.map_take]
    · rfl
  unfold Lycoris.Spec.module module
  dsimp only
  rw [h4, h3, show key% "lora" ++ key% "_" = codes "lora_".toList by decide, ← codes_append, str_codes]

theorem bias_codes (key : Str) : Text.endsWith (key% "bias") (codes key) = true ↔ "bias".toList <:+ key := by
  rw [← suffix_codes, show codes "bias".toList = key% "bias" by decide]
  unfold Text.endsWith
  rw [List.isPrefixOf_iff_prefix, List.reverse_prefix]

theorem moduleOf_eq {bases : List Text} (hb : bases ≠ []) {s : Lycoris.State} (hs : Lycoris.register bases = some s) (key : Str) :
    moduleOf s key = if "bias".toList <:+ key then none else some (module key) := by
  obtain ⟨b, hb⟩ := (⟨_, List.getLast?_eq_some_getLast hb⟩ : ∃ b, bases.getLast? = some b)
  have h1 := (Lycoris.register_state bases _ _ _ hs).1
  rw [Lycoris.last_config bases b hb] at h1
  unfold moduleOf
  rw [h1]
  show (match Lycoris.toKeys (key% "lora") [(codes key, true)] with | [] => none | k :: _ => some (str ((Text.split k).headD []))) = _
  have hm := Lycoris.moduleName_eq (key% "lora") (codes key)
  by_cases h : "bias".toList <:+ key
  · rw [if_pos ((bias_codes key).2 h)] at hm
    rw [if_pos h, Lycoris.toKeys_none _ _ hm]
  · rw [if_neg fun h' => h ((bias_codes key).1 h')] at hm
    rw [if_neg h, Lycoris.toKeys_one _ _ _ hm]
    dsimp only
    rw [Lycoris.split_head _ (Lycoris.module_no_dot _ _ (by decide)), module_codes]

/-- What the conversion makes of what its mapping answers -/
def lora (compose : V → V → V → Except Err V) (get : Str → Res F V) (key : Str) : Res F V :=
  if "bias".toList <:+ key then .error .stateDictKey
  else
    match get (module key ++ ".alpha".toList) with
    | .error e => .error e
    | .ok alpha =>
      match get (module key ++ ".lora_down.weight".toList) with
      | .error e => .error e
      | .ok down =>
        match get (module key ++ ".lora_up.weight".toList) with
        | .error e => .error e
        | .ok up =>
          match alpha, down, up with
          | .tensor alpha, .tensor down, .tensor up => (compose alpha down up).map RVal.tensor
          | _, _, _ => .error .type

theorem eval_lora {bases : List Text} (hb : bases ≠ []) {s : Lycoris.State} (hs : Lycoris.register bases = some s) (compose : V → V → V → Except Err V)
    (W : World F V) (conv : Str) (h : W.impl conv = impl (loraSource s compose)) (pl : Str) (cl sl : Option Str) (key : Str) :
    eval W (.merge conv [.model pl cl sl] []) key = lora compose (castRun W.conv .tensor (eval W (.model pl cl sl))) key := by
  have hm : ∀ args, eval W (.merge conv args []) = applyMerge W.conv (W.impl conv) args.length (evalL W 0 args ++ evalK W []) := by
    intro args; rw [eval]
  rw [hm, h]
  have hch : evalL W 0 [.model pl cl sl] ++ evalK W [] = [⟨.pos 0, eval W (.model pl cl sl), some 1, configOf W (.model pl cl sl)⟩] := by
    rw [evalL, evalL, evalK]
    rfl
  rw [hch]
  generalize eval W (.model pl cl sl) = fl
  generalize configOf W (.model pl cl sl) = gl
  show result _ ((loraSource s compose).body [.sd gl] _ key) = _
  unfold lora loraSource
  simp only
  rw [moduleOf_eq hb hs]
  by_cases hbias : "bias".toList <:+ key
  · rw [if_pos hbias, if_pos hbias]; rfl
  · rw [if_neg hbias, if_neg hbias]
    generalize module key = m
    simp only [result]
    have e : ∀ k, look (argAt [Arg.sd (castRun W.conv .tensor fl) gl] (fun _ => none) (.pos 0)) k = castRun W.conv .tensor fl k := fun _ => rfl
    change result _ (match castRun W.conv .tensor fl (m ++ ".alpha".toList) with | .error e => _ | .ok a => _) = _
    cases castRun W.conv .tensor fl (m ++ ".alpha".toList) with
    | error e => rfl
    | ok al =>
      simp only [result]
      change result _ (match castRun W.conv .tensor fl (m ++ ".lora_down.weight".toList) with | .error e => _ | .ok a => _) = _
      cases castRun W.conv .tensor fl (m ++ ".lora_down.weight".toList) with
      | error e => rfl
      | ok dn =>
        simp only [result]
        change result _ (match castRun W.conv .tensor fl (m ++ ".lora_up.weight".toList) with | .error e => _ | .ok a => _) = _
        cases castRun W.conv .tensor fl (m ++ ".lora_up.weight".toList) with
        | error e => rfl
        | ok up =>
          cases al <;> try rfl
          cases dn <;> try rfl
          cases up <;> rfl

/-- `add_difference` of what the mappings `a` and `b` answer -/
def added (addcmul : V → V → V → Except Err V) (a b : Res F V) (alpha : V) : Res F V :=
  match b with
  | .error e => .error e
  | .ok b =>
    match a with
    | .error e => .error e
    | .ok a =>
      match a, b with
      | .tensor a, .tensor b => (addcmul a b alpha).map RVal.tensor
      | _, _ => .error .type

theorem eval_add (addcmul : V → V → V → Except Err V) (W : World F V) (h : W.impl nAdd = impl (addSource addcmul)) (conv pa pl : Str)
    (ca sa cl sl : Option Str) (i : ℕ) (cc : Option Str) (s : Str) (key : Str) :
    eval W (.merge nAdd [.model pa ca sa, .merge conv [.model pl cl sl] [], .lit (.tensor i) cc s] []) key =
      added addcmul (castRun W.conv .tensor (eval W (.model pa ca sa)) key) (castRun W.conv .tensor (eval W (.merge conv [.model pl cl sl] [])) key)
        (W.tensors i) := by
  have hm : ∀ args, eval W (.merge nAdd args []) = applyMerge W.conv (W.impl nAdd) args.length (evalL W 0 args ++ evalK W []) := by
    intro args; rw [eval]
  rw [hm, h]
  have he : eval W (.lit (.tensor i) cc s) = fun _ => .ok (.tensor (W.tensors i)) := by
    rw [eval] <;> simp [eval]
  have hch : evalL W 0 [.model pa ca sa, .merge conv [.model pl cl sl] [], .lit (.tensor i) cc s] ++ evalK W [] =
      [⟨.pos 0, eval W (.model pa ca sa), some 1, configOf W (.model pa ca sa)⟩,
        ⟨.pos 1, eval W (.merge conv [.model pl cl sl] []), some 2, configOf W (.merge conv [.model pl cl sl] [])⟩,
        ⟨.pos 2, fun _ => .ok (.tensor (W.tensors i)), some 0, configOf W (.lit (.tensor i) cc s)⟩] := by
    rw [evalL, evalL, evalL, evalL, evalK, he]
    rfl
  rw [hch]
  generalize eval W (.model pa ca sa) = fa
  generalize eval W (.merge conv [.model pl cl sl] []) = fb
  generalize configOf W (.model pa ca sa) = ga
  generalize configOf W (.merge conv [.model pl cl sl] []) = gb
  show result _ ((addSource addcmul).body [.sd ga, .sd gb, .val (.tensor (W.tensors i))] (fun _ => none) key) = _
  unfold added addSource
  simp only [result]
  generalize W.tensors i = alpha
  change result _ (match castRun W.conv .tensor fb key with | .error e => _ | .ok a => _) = _
  cases castRun W.conv .tensor fb key with
  | error e => rfl
  | ok vb =>
    simp only [result]
    change result _ (match castRun W.conv .tensor fa key with | .error e => _ | .ok a => _) = _
    cases castRun W.conv .tensor fa key with
    | error e => rfl
    | ok va =>
      cases va <;> try rfl
      cases vb <;> rfl

end Verif.Lora
