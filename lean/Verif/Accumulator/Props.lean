import Verif.Accumulator.Lemmas
import Mathlib.Data.List.Perm.Basic
import Mathlib.Algebra.BigOperators.Group.List.Lemmas
import Mathlib.Data.ZMod.Basic
import Mathlib.Algebra.Field.ZMod

/-! C32 (accumulator state), C33 (membership witnesses), C34 (batch updates). -/

set_option linter.unusedSectionVars false

namespace Verif.Accumulator

universe u
variable {F G1 G2 GT : Type u} [Field F] [DecidableEq F] [AddCommGroup G1] [Module F G1]
  [DecidableEq G1] [AddCommGroup G2] [Module F G2] [DecidableEq G2] [CommGroup GT] [DecidableEq GT]

/-! ### specification vocabulary -/

/-- `∏ (y + α)` over a list of elements: the factor by which adding them multiplies the accumulator. -/
def factor (α : F) (ys : List F) : F := (ys.map (· + α)).prod

/-- elements added by a call -/
def Op.added : Op F → List F
  | .add y => [y]
  | .remove _ => []
  | .addElements ys => ys
  | .update adds _ => adds

/-- elements removed by a call -/
def Op.removed : Op F → List F
  | .add _ => []
  | .remove y => [y]
  | .addElements _ => []
  | .update _ dels => dels

/-- calls that refuse to work on the identity (`AddElements` is the one that does not) -/
def Op.strict : Op F → Bool
  | .addElements _ => false
  | _ => true

def added (h : List (Op F)) : List F := h.flatMap Op.added
def removed (h : List (Op F)) : List F := h.flatMap Op.removed

theorem factor_append (α : F) (a b : List F) : factor α (a ++ b) = factor α a * factor α b := by
  simp [factor]

theorem factor_ne_zero {α : F} {ys : List F} : factor α ys ≠ 0 ↔ -α ∉ ys := by
  rw [factor, Ne, List.prod_eq_zero_iff, List.mem_map]
  constructor
  · intro h hm; exact h ⟨-α, hm, by ring⟩
  · rintro h ⟨y, hy, h0⟩
    apply h
    have : y = -α := by linear_combination h0
    exact this ▸ hy

theorem factor_perm {α : F} {a b : List F} (h : a.Perm b) : factor α a = factor α b :=
  (h.map _).prod_eq

/-! ### C32 -/

theorem update_eq (α : F) (V : G1) (adds dels : List F) (hV : V ≠ 0) (h : -α ∉ dels) :
    ∃ cs, update α V adds dels = .ok ((factor α adds * (factor α dels)⁻¹) • V,
      cs.map fun c => c • V) ∧ createCoefficients α adds dels = .ok cs := by
  have h0 : (dels.map (· + α)).prod ≠ 0 := factor_ne_zero.mpr h
  obtain ⟨cs, h1, -, -⟩ := createCoefficients_spec α adds dels h0
  refine ⟨cs, ?_, h1⟩
  rw [update, if_neg hV, batchDeletions_eq _ _ h0]
  simp only [Res.bind_ok]
  rw [h1]
  simp only [Res.bind_ok, batchAdditions_eq, factor]

theorem update_err (α : F) (V : G1) (adds dels : List F) (h : V = 0 ∨ -α ∈ dels) :
    update α V adds dels = .err := by
  rw [update]
  split
  · rfl
  · have h0 : (dels.map (· + α)).prod = 0 := by
      by_contra hc
      exact absurd (h.resolve_left ‹_›) (factor_ne_zero.mp hc)
    rw [createCoefficients_err α dels h0]; rfl

theorem remove_eq (α : F) (V : G1) (y : F) (hV : V ≠ 0) (h : y + α ≠ 0) :
    remove α V y = .ok ((y + α)⁻¹ • V) := by
  rw [remove, if_neg hV, invert, if_neg h]; rfl

/-- When a call on an accumulator fails, and what it computes otherwise: `AddElements` always
succeeds; `Add`, `Remove`, `Update` fail exactly on the identity value or when one of the removed
elements is `-α`; nothing panics. -/
theorem C32_step (α : F) (V : G1) (op : Op F) :
    op.apply α V =
      if (V = 0 ∧ op.strict = true) ∨ -α ∈ op.removed then .err
      else .ok ((factor α op.added * (factor α op.removed)⁻¹) • V) := by
  rcases op with y | y | ys | ⟨adds, dels⟩
  · by_cases h : V = 0
    · simp [Op.apply, add, h, Op.strict]
    · simp [Op.apply, add, h, Op.removed, Op.added, factor]
  · by_cases h : V = 0
    · simp [Op.apply, remove, h, Op.strict]
    · by_cases h0 : y + α = 0
      · have h1 : y = -α := by linear_combination h0
        simp [Op.apply, remove, h, Op.removed, invert, h1]
      · have h1 : ¬ -α = y := by
          intro hc; apply h0; rw [← hc]; ring
        rw [Op.apply, remove_eq _ _ _ h h0]
        simp [h, Op.removed, h1, Op.added, factor]
  · simp [Op.apply, addElements, Op.strict, Op.removed, Op.added, batchAdditions_eq, factor]
  · by_cases h : V = 0 ∨ -α ∈ dels
    · rw [Op.apply, update_err _ _ _ _ h, if_pos (by simpa [Op.removed, Op.strict] using h)]; rfl
    · push Not at h
      obtain ⟨cs, h1, -⟩ := update_eq α V adds dels h.1 h.2
      rw [Op.apply, h1, if_neg (by simp [Op.removed, h.1, h.2])]
      rfl

/-- **C32.** After any history of calls, failing ones included, the accumulator is
`∏(added + α) / ∏(removed + α)` times its initial value, over exactly the calls that succeeded; and no
successful call removed `-α`. -/
theorem C32_value (α : F) (h : List (Op F)) (V : G1) :
    (exec α V h).1 = (factor α (added (exec α V h).2) *
      (factor α (removed (exec α V h).2))⁻¹) • V ∧ -α ∉ removed (exec α V h).2 := by
  induction h generalizing V with
  | nil => simp [exec, added, removed, factor]
  | cons op h ih =>
    have hs := C32_step α V op
    rw [exec]
    split at hs
    · rw [hs]; exact ih V
    · rename_i hn
      rw [hs]
      push Not at hn
      obtain ⟨h1, h2⟩ := ih ((factor α op.added * (factor α op.removed)⁻¹) • V)
      set r := exec α ((factor α op.added * (factor α op.removed)⁻¹) • V) h with hr
      refine ⟨?_, ?_⟩
      · show r.1 = _
        rw [h1]
        simp only [added, removed, List.flatMap_cons, factor_append, mul_inv]
        rw [smul_smul]
        congr 1
        ring
      · simp only [removed, List.flatMap_cons, List.mem_append]
        rintro (h3 | h3)
        · exact hn.2 h3
        · exact h2 h3

/-- **C32.** Only the net multiset counts: two histories from the same value, whose successful calls
have the same additions minus deletions as multisets, end in the same value — whatever the order,
the batching and the intermediate states. -/
theorem C32_net (α : F) (V : G1) (h h' : List (Op F))
    (net : (added (exec α V h).2 ++ removed (exec α V h').2).Perm
      (added (exec α V h').2 ++ removed (exec α V h).2)) :
    (exec α V h).1 = (exec α V h').1 := by
  obtain ⟨a1, a2⟩ := C32_value α h V
  obtain ⟨b1, b2⟩ := C32_value α h' V
  have hp := factor_perm (α := α) net
  rw [factor_append, factor_append] at hp
  have a3 := factor_ne_zero.mpr a2
  have b3 := factor_ne_zero.mpr b2
  rw [a1, b1]
  congr 1
  field_simp
  rw [hp, mul_comm]

/-- **C32.** A history that never mentions `-α` succeeds throughout (on a non-identity value), and the
value never becomes the identity. -/
theorem C32_succeeds (α : F) (h : List (Op F)) (V : G1) (hV : V ≠ 0)
    (ha : -α ∉ added h) (hr : -α ∉ removed h) :
    (exec α V h).2 = h ∧ (exec α V h).1 ≠ 0 := by
  induction h generalizing V with
  | nil => exact ⟨rfl, hV⟩
  | cons op h ih =>
    simp only [added, removed, List.flatMap_cons, List.mem_append, not_or] at ha hr
    have hs := C32_step α V op
    rw [if_neg (by simp [hV, hr.1])] at hs
    rw [exec, hs]
    have hk : factor α op.added * (factor α op.removed)⁻¹ ≠ 0 :=
      mul_ne_zero (factor_ne_zero.mpr ha.1) (inv_ne_zero (factor_ne_zero.mpr hr.1))
    obtain ⟨h1, h2⟩ := ih ((factor α op.added * (factor α op.removed)⁻¹) • V)
      (smul_ne_zero hk hV) ha.2 hr.2
    exact ⟨congrArg (op :: ·) h1, h2⟩

/-- **C32.** Adding then removing (or removing then adding) an element restores the value. -/
theorem C32_add_remove (α : F) (V : G1) (y : F) (hV : V ≠ 0) (hy : y + α ≠ 0) :
    (add α V y >>= fun V' => remove α V' y) = .ok V ∧
    (remove α V y >>= fun V' => add α V' y) = .ok V := by
  have h1 : (y + α) • V ≠ 0 := smul_ne_zero hy hV
  have h2 : (y + α)⁻¹ • V ≠ 0 := smul_ne_zero (inv_ne_zero hy) hV
  refine ⟨?_, ?_⟩
  · rw [add, if_neg hV, Res.bind_ok, remove_eq _ _ _ h1 hy, smul_smul, inv_mul_cancel₀ hy, one_smul]
  · rw [remove_eq _ _ _ hV hy, Res.bind_ok, add, if_neg h2, smul_smul, mul_inv_cancel₀ hy, one_smul]

/-- **C32.** `WithElements` is `New` followed by adding the elements one by one, or in one batch, or as
an `Update` without deletions. -/
theorem C32_withElements (E : Pairing F G1 G2 GT) (α : F) (m : List F) (h1 : E.g1 ≠ 0)
    (hm : -α ∉ m) :
    withElements E α m = (exec α (new E) (m.map Op.add)).1 ∧
    addElements α (new E) m = .ok (withElements E α m) ∧
    (Op.update m []).apply α (new E) = .ok (withElements E α m) := by
  have ha : added (m.map Op.add) = m := by
    rw [added, List.flatMap_map]
    show List.flatMap (fun y => [y]) m = m
    simp
  have hr : removed (m.map Op.add) = [] := by
    rw [removed, List.flatMap_map]
    show List.flatMap (fun _ => []) m = []
    simp
  obtain ⟨k1, -⟩ := C32_succeeds α (m.map Op.add) (new E) h1 (by rwa [ha]) (by rw [hr]; simp)
  obtain ⟨v1, -⟩ := C32_value α (m.map Op.add) (new E)
  rw [k1, ha, hr] at v1
  refine ⟨?_, rfl, ?_⟩
  · rw [v1, withElements, batchAdditions_eq]; simp [factor]
  · rw [C32_step, if_neg (by simp [Op.removed, new, h1]), withElements, batchAdditions_eq]
    simp [Op.added, Op.removed, factor]

/-- The one exceptional element: adding `-α` turns the accumulator into the identity, after which
`Add`, `Remove` and `Update` all fail and `AddElements` changes nothing. -/
theorem C32_poisoned (α : F) (V : G1) (hV : V ≠ 0) (h : List (Op F)) :
    add α V (-α) = .ok 0 ∧ (exec α (0 : G1) h).1 = 0 := by
  refine ⟨by rw [add, if_neg hV]; simp, ?_⟩
  rw [(C32_value α h 0).1, smul_zero]

/-! ### C33 -/

/-- **C33.** `Verify` accepts `(C, y)` against accumulator `V` and public key `α·P̃` exactly when
`(y + α)·C = V` and none of `C`, `y`, `V`, the key is zero. -/
theorem C33_verify_iff (E : Pairing F G1 G2 GT) (w : Witness F G1) (α : F) (V : G1) :
    verify E w (getPublicKey E α) V = true ↔
      w.c ≠ 0 ∧ w.y ≠ 0 ∧ α • E.g2 ≠ 0 ∧ V ≠ 0 ∧ (w.y + α) • w.c = V := by
  have key : E.e w.c (w.y • E.g2 + α • E.g2) * E.e (-V) E.g2 = 1 ↔ (w.y + α) • w.c = V := by
    rw [← add_smul, ← E.smul_swap, E.neg_left, mul_inv_eq_one, E.e_g2_inj]
  rw [verify, getPublicKey]
  by_cases h1 : w.c = 0
  · simp [h1]
  by_cases h2 : w.y = 0
  · simp [h2]
  by_cases h3 : α • E.g2 = 0
  · simp [h3]
  by_cases h4 : V = 0
  · simp [h4]
  rw [if_neg (by simp [h1, h2]), if_neg h3, if_neg h4]
  simp only [decide_eq_true_eq, key]
  simp [h1, h2, h3, h4]

/-- **C33.** Whatever `New` issues verifies against the accumulator and key it was issued for. -/
theorem C33_issued_verifies (E : Pairing F G1 G2 GT) (y α : F) (V : G1) (w : Witness F G1)
    (hg : E.g2 ≠ 0) (h : newWitness y V α = .ok w) :
    w.y = y ∧ verify E w (getPublicKey E α) V = true := by
  rw [newWitness] at h
  split at h
  · cases h
  split at h
  · cases h
  split at h
  · cases h
  rename_i hV hα hy
  by_cases h0 : y + α = 0
  · rw [remove, if_neg hV, invert, if_pos h0] at h; cases h
  rw [remove_eq _ _ _ hV h0] at h
  simp only [Res.bind_ok, Res.ok.injEq] at h
  subst h
  refine ⟨add_zero y, (C33_verify_iff E _ α V).mpr ⟨smul_ne_zero (inv_ne_zero h0) hV, by simpa using hy,
    smul_ne_zero hα hg, hV, ?_⟩⟩
  simp only [add_zero, smul_smul, mul_inv_cancel₀ h0, one_smul]

/-- **C33.** `New` issues for exactly the elements `y ∉ {0, -α}`, on a non-identity accumulator with a
non-zero key.  There is no membership check: the manager can issue a verifying witness for an element
that was never added. -/
theorem C33_issue_iff (y α : F) (V : G1) :
    (∃ w, newWitness y V α = .ok w) ↔ V ≠ 0 ∧ α ≠ 0 ∧ y ≠ 0 ∧ y ≠ -α := by
  have hc : y = -α ↔ y + α = 0 := eq_neg_iff_add_eq_zero
  rw [newWitness, Ne, Ne, Ne, Ne, hc]
  split
  · simp_all
  split
  · simp_all
  split
  · simp_all
  rename_i hV hα hy
  by_cases h0 : y + α = 0
  · simp [remove, hV, invert, h0]
  · simp [remove_eq _ _ _ hV h0, hV, hα, hy, h0]

/-- **C33.** For each element there is at most one verifying witness. -/
theorem C33_unique (E : Pairing F G1 G2 GT) (α : F) (V : G1) (w w' : Witness F G1)
    (hy : w.y = w'.y) (h : verify E w (getPublicKey E α) V = true)
    (h' : verify E w' (getPublicKey E α) V = true) : w = w' := by
  obtain ⟨-, -, -, hV, h1⟩ := (C33_verify_iff E w α V).mp h
  obtain ⟨-, -, -, -, h2⟩ := (C33_verify_iff E w' α V).mp h'
  have h0 : w.y + α ≠ 0 := by
    intro hc; rw [hc, zero_smul] at h1; exact hV h1.symm
  have hcc : w.c = w'.c := by
    rw [← hy] at h2
    exact smul_right_injective G1 h0 (h1.trans h2.symm)
  cases w; cases w'; simp_all

/-- **C33.** Revocation: once the element is removed, its old witness stops verifying (except in the
degenerate case `y + α = 1`, where removal changes nothing). -/
theorem C33_revoked (E : Pairing F G1 G2 GT) (α : F) (V V' : G1) (w : Witness F G1)
    (h : verify E w (getPublicKey E α) V = true) (hr : remove α V w.y = .ok V') :
    verify E w (getPublicKey E α) V' = true ↔ w.y + α = 1 := by
  obtain ⟨hc, hy, hk, hV, h1⟩ := (C33_verify_iff E w α V).mp h
  have h0 : w.y + α ≠ 0 := by
    intro hc; rw [hc, zero_smul] at h1; exact hV h1.symm
  rw [remove_eq _ _ _ hV h0] at hr
  simp only [Res.ok.injEq] at hr
  have hV' : V' = w.c := by rw [← hr, ← h1, smul_smul, inv_mul_cancel₀ h0, one_smul]
  rw [C33_verify_iff, hV']
  constructor
  · rintro ⟨-, -, -, -, h2⟩
    have h3 : (w.y + α) • w.c = (1 : F) • w.c := by rw [h2, one_smul]
    exact smul_left_injective F hc h3
  · intro h2
    exact ⟨hc, hy, hk, hc, by rw [h2, one_smul]⟩

/-! ### C34 -/

/-- the relation a witness has to satisfy -/
def Rel (α : F) (V : G1) (w : Witness F G1) : Prop := (w.y + α) • w.c = V

theorem prod_sub_ne_zero {y : F} {ys : List F} : (ys.map (· - y)).prod ≠ 0 ↔ y ∉ ys := by
  rw [Ne, List.prod_eq_zero_iff, List.mem_map]
  constructor
  · intro h hm; exact h ⟨y, hm, by ring⟩
  · rintro h ⟨z, hz, h0⟩
    apply h
    have : z = y := by linear_combination h0
    exact this ▸ hz

/-- One epoch, as a formula. -/
theorem batch_eq (y : F) (adds dels : List F) (cs : List G1) (hy : y ∉ dels) (hcs : cs ≠ [])
    (w : Witness F G1) (hw : w.y = y) :
    batchUpdate w (some adds) (some dels) cs = .ok ⟨(((adds.map (· - y)).prod *
      (dels.map (· - y)).prod⁻¹) • w.c) + (dels.map (· - y)).prod⁻¹ • evalG cs y, y⟩ := by
  subst hw
  rw [batchUpdate, evaluateDelta]
  simp only [dad_some, Res.bind_ok, invert, if_neg (prod_sub_ne_zero.mpr hy), evaluate_eq cs _ hcs,
    applyDelta]

/-- The algebra of one epoch: relation before, relation after. -/
theorem epoch_rel (α : F) (V V' : G1) (adds dels : List F) (cs : List G1) (c : G1) (y : F)
    (h : update α V adds dels = .ok (V', cs)) (hy : y ∉ dels) :
    (y + α) • ((((adds.map (· - y)).prod * (dels.map (· - y)).prod⁻¹) • c) +
      (dels.map (· - y)).prod⁻¹ • evalG cs y) - V' =
    ((adds.map (· - y)).prod * (dels.map (· - y)).prod⁻¹) • ((y + α) • c - V) := by
  have hn : ¬ (V = 0 ∨ -α ∈ dels) := by
    intro hc; rw [update_err _ _ _ _ hc] at h; cases h
  push Not at hn
  obtain ⟨es, h1, h2⟩ := update_eq α V adds dels hn.1 hn.2
  rw [h1] at h
  simp only [Res.ok.injEq, Prod.mk.injEq] at h
  obtain ⟨h3, h4⟩ := h
  obtain ⟨es', k1, -, k3⟩ := createCoefficients_spec α adds dels (factor_ne_zero.mpr hn.2)
  rw [h2] at k1
  cases k1
  have k := k3 y
  rw [← h4, ← h3, evalG_map_smul]
  have hd := prod_sub_ne_zero.mpr hy
  have hd' := factor_ne_zero.mpr hn.2
  unfold factor at hd' ⊢
  generalize (adds.map (· - y)).prod = A at *
  generalize (dels.map (· - y)).prod = D at *
  generalize (adds.map (· + α)).prod = a at *
  generalize (dels.map (· + α)).prod = d at *
  have e : (y + α) * (D⁻¹ * evalF es y) = a * d⁻¹ - A * D⁻¹ := by
    calc (y + α) * (D⁻¹ * evalF es y) = D⁻¹ * ((y + α) * evalF es y) := by ring
      _ = D⁻¹ * (a * d⁻¹ * D - A) := by rw [k]
      _ = a * d⁻¹ - A * D⁻¹ := by field_simp
  rw [smul_add, smul_smul (y + α) D⁻¹, smul_smul ((y + α) * D⁻¹) _ V, mul_assoc, e]
  module

theorem update_coeffs_length (α : F) (V V' : G1) (adds dels : List F) (cs : List G1)
    (h : update α V adds dels = .ok (V', cs)) : cs.length = max adds.length dels.length := by
  have hn : ¬ (V = 0 ∨ -α ∈ dels) := by
    intro hc; rw [update_err _ _ _ _ hc] at h; cases h
  push Not at hn
  obtain ⟨es, h1, h2⟩ := update_eq α V adds dels hn.1 hn.2
  rw [h1] at h
  simp only [Res.ok.injEq, Prod.mk.injEq] at h
  obtain ⟨es', k1, k2, -⟩ := createCoefficients_spec α adds dels (factor_ne_zero.mpr hn.2)
  rw [h2] at k1
  cases k1
  rw [← h.2, List.length_map, k2]

/-- **C34.** If a witness satisfies the accumulator relation before `Update`, then `BatchUpdate` with
the published coefficients succeeds and its result satisfies the relation for the new value, for every
non-empty batch that does not delete the witness's element. -/
theorem C34_batch (α : F) (V V' : G1) (adds dels : List F) (cs : List G1) (w : Witness F G1)
    (h : update α V adds dels = .ok (V', cs)) (hy : w.y ∉ dels) (hne : adds ≠ [] ∨ dels ≠ [])
    (hw : (w.y + α) • w.c = V) :
    ∃ w', batchUpdate w (some adds) (some dels) cs = .ok w' ∧ w'.y = w.y ∧
      (w'.y + α) • w'.c = V' := by
  have hcs : cs ≠ [] := by
    apply List.length_pos_iff.mp
    rw [update_coeffs_length _ _ _ _ _ _ h]
    rcases hne with hne | hne
    · have := List.length_pos_iff.mpr hne; omega
    · have := List.length_pos_iff.mpr hne; omega
  refine ⟨_, batch_eq w.y adds dels cs hy hcs w rfl, rfl, ?_⟩
  have := epoch_rel α V V' adds dels cs w.c w.y h hy
  rw [hw, sub_self, smul_zero, sub_eq_zero] at this
  exact this

/-- **C34.** In terms of `Verify`: a verifying witness still verifies after the update, provided the
new accumulator value is not the identity. -/
theorem C34_batch_verify (E : Pairing F G1 G2 GT) (α : F) (V V' : G1) (adds dels : List F)
    (cs : List G1) (w : Witness F G1) (h : update α V adds dels = .ok (V', cs)) (hy : w.y ∉ dels)
    (hne : adds ≠ [] ∨ dels ≠ []) (hw : verify E w (getPublicKey E α) V = true) (hV' : V' ≠ 0) :
    ∃ w', batchUpdate w (some adds) (some dels) cs = .ok w' ∧ w'.y = w.y ∧
      verify E w' (getPublicKey E α) V' = true := by
  obtain ⟨-, h2, h3, -, h5⟩ := (C33_verify_iff E w α V).mp hw
  obtain ⟨w', k1, k2, k3⟩ := C34_batch α V V' adds dels cs w h hy hne h5
  refine ⟨w', k1, k2, (C33_verify_iff E w' α V').mpr ⟨?_, by rw [k2]; exact h2, h3, hV', k3⟩⟩
  intro hc
  rw [hc, smul_zero] at k3
  exact hV' k3.symm

/-- **C34.** The update of an element that was not itself added preserves invalidity too: an invalid
witness cannot become valid. -/
theorem C34_batch_sound (α : F) (V V' : G1) (adds dels : List F) (cs : List G1) (w w' : Witness F G1)
    (h : update α V adds dels = .ok (V', cs)) (ha : w.y ∉ adds)
    (hb : batchUpdate w (some adds) (some dels) cs = .ok w') :
    (w'.y + α) • w'.c = V' ↔ (w.y + α) • w.c = V := by
  have hy : w.y ∉ dels := by
    intro hc
    have h0 : (dels.map (· - w.y)).prod = 0 := by
      by_contra hn; exact prod_sub_ne_zero.mp hn hc
    rw [batchUpdate, evaluateDelta, dad_some] at hb
    simp only [Res.bind_ok, invert, if_pos h0, Res.bind_err] at hb
    cases hb
  have hcs : cs ≠ [] := by
    rintro rfl
    rw [batchUpdate, evaluateDelta] at hb
    simp only [dad_some, Res.bind_ok, invert, if_neg (prod_sub_ne_zero.mpr hy), evaluate,
      Res.bind_panic] at hb
    cases hb
  rw [batch_eq w.y adds dels cs hy hcs w rfl] at hb
  simp only [Res.ok.injEq] at hb
  subst hb
  have e := epoch_rel α V V' adds dels cs w.c w.y h hy
  rw [← sub_eq_zero, e, smul_eq_zero, ← sub_eq_zero (a := (w.y + α) • w.c)]
  constructor
  · rintro (h1 | h1)
    · exact absurd h1 (mul_ne_zero (prod_sub_ne_zero.mpr ha)
        (inv_ne_zero (prod_sub_ne_zero.mpr hy)))
    · exact h1
  · exact Or.inr

/-- For an element added in the batch, on the other hand, the published coefficients determine the new
witness outright: *any* starting point is turned into a valid witness. -/
theorem C34_added_from_anything (α : F) (V V' : G1) (adds dels : List F) (cs : List G1)
    (w : Witness F G1) (h : update α V adds dels = .ok (V', cs)) (ha : w.y ∈ adds)
    (hy : w.y ∉ dels) :
    ∃ w', batchUpdate w (some adds) (some dels) cs = .ok w' ∧ (w'.y + α) • w'.c = V' := by
  have hcs : cs ≠ [] := by
    apply List.length_pos_iff.mp
    rw [update_coeffs_length _ _ _ _ _ _ h]
    have := List.length_pos_iff.mpr (List.ne_nil_of_mem ha); omega
  refine ⟨_, batch_eq w.y adds dels cs hy hcs w rfl, ?_⟩
  have e := epoch_rel α V V' adds dels cs w.c w.y h hy
  have h0 : (adds.map (· - w.y)).prod = 0 := by
    by_contra hn; exact prod_sub_ne_zero.mp hn ha
  rw [h0, zero_mul, zero_smul, zero_smul, sub_eq_zero] at e
  rw [h0]
  simpa using e

/-- **C34.** A deleted element cannot be updated: `BatchUpdate` returns an error. -/
theorem C34_deleted_fails (w : Witness F G1) (adds : Option (List F)) (dels : List F) (cs : List G1)
    (hy : w.y ∈ dels) : batchUpdate w adds (some dels) cs = .err := by
  have h0 : (dels.map (· - w.y)).prod = 0 := by
    by_contra hn; exact prod_sub_ne_zero.mp hn hy
  rw [batchUpdate, evaluateDelta, dad_some]
  simp only [Res.bind_ok, invert, if_pos h0, Res.bind_err]

/-- The boundary the property excludes: after `Update` with an empty batch (which succeeds and
publishes no coefficients) `BatchUpdate` panics, instead of returning the witness unchanged. -/
theorem C34_empty_batch_panics (α : F) (V : G1) (w : Witness F G1) (hV : V ≠ 0) :
    update α V [] [] = .ok (V, []) ∧ batchUpdate w (some []) (some []) [] = .panic := by
  refine ⟨?_, ?_⟩
  · obtain ⟨cs, h1, h2⟩ := update_eq α V [] [] hV (by simp)
    have : cs = [] := by
      have h3 : createCoefficients α [] [] = .ok [] := rfl
      rw [h3] at h2; cases h2; rfl
    subst this
    simpa [factor] using h1
  · rw [batchUpdate, evaluateDelta]
    simp only [dad_some, List.map_nil, List.prod_nil, Res.bind_ok, invert,
      if_neg (one_ne_zero : (1 : F) ≠ 0), evaluate, Res.bind_panic]

end Verif.Accumulator
