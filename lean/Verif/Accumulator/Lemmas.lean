import Verif.Accumulator.Model
import Mathlib.Algebra.BigOperators.Group.List.Lemmas
import Mathlib.Algebra.BigOperators.Group.List.Basic

/-! Lemmas about the polynomial arithmetic of lib.go / key.go. -/

set_option linter.unusedSectionVars false

namespace Verif.Accumulator

universe u
variable {F G1 G2 GT : Type u} [Field F] [DecidableEq F] [AddCommGroup G1] [Module F G1]
  [DecidableEq G1] [AddCommGroup G2] [Module F G2] [DecidableEq G2] [CommGroup GT] [DecidableEq GT]

theorem foldl_mul {ι : Type*} (f : ι → F) (l : List ι) (a : F) :
    l.foldl (fun r v => r * f v) a = a * (l.map f).prod := by
  induction l generalizing a with
  | nil => simp
  | cons x xs ih => simp only [List.foldl_cons, ih, List.map_cons, List.prod_cons]; ring

theorem dad_some (vs : List F) (y : F) : dad (some vs) y = .ok (vs.map (· - y)).prod := by
  rcases vs with _ | ⟨a, _ | ⟨b, vs⟩⟩
  · rfl
  · simp [dad]
  · rw [dad, foldl_mul (fun v => v - y), one_mul]
    intro a h; cases h

theorem batchAdditions_eq (α : F) (ys : List F) : batchAdditions α ys = (ys.map (· + α)).prod := by
  rw [batchAdditions, foldl_mul (fun y => y + α), one_mul]

theorem batchDeletions_eq (α : F) (ys : List F) (h : (ys.map (· + α)).prod ≠ 0) :
    batchDeletions α ys = .ok (ys.map (· + α)).prod⁻¹ := by
  rw [batchDeletions, batchAdditions_eq, invert, if_neg h]

/-- Value of a polynomial given by its coefficient list, lowest degree first. -/
def evalF (p : List F) (x : F) : F := p.foldr (fun c r => c + x * r) 0

/-- The same for coefficients in the group. -/
def evalG (p : List G1) (x : F) : G1 := p.foldr (fun c r => c + x • r) 0

theorem evaluate_aux (cs : List G1) (x : F) (a : G1) (w : F) :
    (cs.foldl (fun (s : G1 × F) c => (s.1 + s.2 • c, s.2 * x)) (a, w)).1 = a + w • evalG cs x := by
  induction cs generalizing a w with
  | nil => simp [evalG]
  | cons c cs ih =>
    rw [List.foldl_cons, ih]
    simp only [evalG, List.foldr_cons]
    module

theorem evaluate_eq (p : List G1) (x : F) (h : p ≠ []) : evaluate p x = .ok (evalG p x) := by
  rcases p with _ | ⟨c, cs⟩
  · exact absurd rfl h
  · rw [evaluate, evaluate_aux]
    simp [evalG]

theorem evalG_map_smul (p : List F) (V : G1) (x : F) :
    evalG (p.map fun c => c • V) x = evalF p x • V := by
  induction p with
  | nil => simp [evalG, evalF]
  | cons c cs ih =>
    simp only [evalG, evalF, List.map_cons, List.foldr_cons] at ih ⊢
    rw [ih]; module

theorem evalF_polyAdd (p q : List F) (x : F) : evalF (polyAdd p q) x = evalF p x + evalF q x := by
  induction p generalizing q with
  | nil => simp [polyAdd, evalF]
  | cons a p ih =>
    rcases q with _ | ⟨b, q⟩
    · simp [polyAdd, evalF]
    · have := ih q
      simp only [polyAdd, evalF, List.foldr_cons] at this ⊢
      rw [this]; ring

theorem evalF_polySub (p q : List F) (x : F) : evalF (polySub p q) x = evalF p x - evalF q x := by
  induction p generalizing q with
  | nil =>
    induction q with
    | nil => simp [polySub, evalF]
    | cons b q ih =>
      simp only [polySub, evalF, List.map_cons, List.foldr_cons, List.foldr_nil] at ih ⊢
      rw [ih]; ring
  | cons a p ih =>
    rcases q with _ | ⟨b, q⟩
    · simp [polySub, evalF]
    · have := ih q
      simp only [polySub, evalF, List.foldr_cons] at this ⊢
      rw [this]; ring

theorem evalF_mulScalar (p : List F) (r x : F) : evalF (polyMulScalar p r) x = evalF p x * r := by
  induction p with
  | nil => simp [polyMulScalar, evalF]
  | cons a p ih =>
    simp only [polyMulScalar, evalF, List.map_cons, List.foldr_cons] at ih ⊢
    rw [ih]; ring

theorem evalG_ppAdd (p q : List G1) (x : F) : evalG (ppAdd p q) x = evalG p x + evalG q x := by
  induction p generalizing q with
  | nil => simp [ppAdd, evalG]
  | cons a p ih =>
    rcases q with _ | ⟨b, q⟩
    · simp [ppAdd, evalG]
    · have := ih q
      simp only [ppAdd, evalG, List.foldr_cons] at this ⊢
      rw [this]; module

theorem evalG_ppMul (p : List G1) (r x : F) : evalG (ppMul p r) x = r • evalG p x := by
  induction p with
  | nil => simp [ppMul, evalG]
  | cons a p ih =>
    simp only [ppMul, evalG, List.map_cons, List.foldr_cons] at ih ⊢
    rw [ih]; module

theorem length_polyAdd (p q : List F) : (polyAdd p q).length = max p.length q.length := by
  induction p generalizing q with
  | nil => simp [polyAdd]
  | cons a p ih =>
    rcases q with _ | ⟨b, q⟩
    · simp [polyAdd]
    · simp only [polyAdd, List.length_cons, ih q]; omega

theorem length_polySub (p q : List F) : (polySub p q).length = max p.length q.length := by
  induction p generalizing q with
  | nil => simp [polySub]
  | cons a p ih =>
    rcases q with _ | ⟨b, q⟩
    · simp [polySub]
    · simp only [polySub, List.length_cons, ih q]; omega

theorem length_ppAdd (p q : List G1) : (ppAdd p q).length = max p.length q.length := by
  induction p generalizing q with
  | nil => simp [ppAdd]
  | cons a p ih =>
    rcases q with _ | ⟨b, q⟩
    · simp [ppAdd]
    · simp only [ppAdd, List.length_cons, ih q]; omega

theorem evalF_modify (p : List F) (k : Nat) (t x : F) (h : k < p.length) :
    evalF (p.modify k (· + t)) x = evalF p x + t * x ^ k := by
  induction p generalizing k with
  | nil => simp at h
  | cons a p ih =>
    rcases k with _ | k
    · simp only [List.modify_zero_cons, evalF, List.foldr_cons, pow_zero]; ring
    · have := ih k (by simpa using h)
      simp only [List.modify_succ_cons, evalF, List.foldr_cons] at this ⊢
      rw [this]; ring

theorem mul_inner (q : List F) (c : F) (i j : Nat) (prod : List F) (x : F)
    (h : i + j + q.length ≤ prod.length) :
    let r := (q.zipIdx j).foldl (fun prod dj => prod.modify (i + dj.2) (· + c * dj.1)) prod
    r.length = prod.length ∧ evalF r x = evalF prod x + c * x ^ (i + j) * evalF q x := by
  induction q generalizing j prod with
  | nil => simp [evalF]
  | cons b q ih =>
    simp only [List.zipIdx_cons, List.foldl_cons]
    simp only [List.length_cons] at h
    obtain ⟨h1, h2⟩ := ih (j + 1) (prod.modify (i + j) (· + c * b)) (by
      rw [List.length_modify]; omega)
    refine ⟨by rw [h1, List.length_modify], ?_⟩
    rw [h2, evalF_modify _ _ _ _ (by omega)]
    simp only [evalF, List.foldr_cons]
    ring

theorem mul_outer (p q : List F) (i : Nat) (prod : List F) (x : F)
    (h : p = [] ∨ i + p.length + q.length ≤ prod.length + 1) :
    let r := (p.zipIdx i).foldl (fun prod ci =>
      q.zipIdx.foldl (fun prod dj => prod.modify (ci.2 + dj.2) (· + ci.1 * dj.1)) prod) prod
    r.length = prod.length ∧ evalF r x = evalF prod x + x ^ i * evalF p x * evalF q x := by
  induction p generalizing i prod with
  | nil => simp [evalF]
  | cons a p ih =>
    simp only [List.zipIdx_cons, List.foldl_cons]
    have h' : i + (p.length + 1) + q.length ≤ prod.length + 1 := by
      rcases h with h | h
      · cases h
      · simpa using h
    obtain ⟨k1, k2⟩ := mul_inner q a i 0 prod x (by omega)
    obtain ⟨h1, h2⟩ := ih (i + 1)
      (q.zipIdx.foldl (fun prod dj => prod.modify (i + dj.2) (· + a * dj.1)) prod) (by
        right; rw [k1]; omega)
    refine ⟨by rw [h1, k1], ?_⟩
    rw [h2, k2]
    simp only [evalF, List.foldr_cons]
    ring

theorem evalF_replicate (n : Nat) (x : F) : evalF (List.replicate n (0 : F)) x = 0 := by
  induction n with
  | zero => simp [evalF]
  | succ n ih =>
    simp only [evalF, List.replicate_succ, List.foldr_cons] at ih ⊢
    rw [ih]; ring

theorem polyMul_eq (p q : List F) (hp : p ≠ []) :
    ∃ r, polyMul p q = .ok r ∧ r.length = p.length + q.length - 1 ∧
      ∀ x, evalF r x = evalF p x * evalF q x := by
  have h0 : 0 < p.length := List.length_pos_iff.mpr hp
  rw [polyMul, if_neg (by omega)]
  refine ⟨_, rfl, ?_, fun x => ?_⟩
  · obtain ⟨h1, -⟩ := mul_outer p q 0 (List.replicate (p.length + q.length - 1) (0 : F)) 0
      (by right; rw [List.length_replicate]; omega)
    rw [h1, List.length_replicate]
  · obtain ⟨-, h2⟩ := mul_outer p q 0 (List.replicate (p.length + q.length - 1) (0 : F)) x
      (by right; rw [List.length_replicate]; omega)
    rw [h2, evalF_replicate]; ring

theorem linProd_aux (ys : List F) (p : List F) (hp : p ≠ []) :
    ∃ r, ys.foldlM (fun poly y => polyMul poly [y, -1]) p = Res.ok r ∧
      r.length = p.length + ys.length ∧ ∀ x, evalF r x = evalF p x * (ys.map (· - x)).prod := by
  induction ys generalizing p with
  | nil => exact ⟨p, rfl, rfl, fun x => by simp⟩
  | cons y ys ih =>
    obtain ⟨q, h1, h2, h3⟩ := polyMul_eq p [y, -1] hp
    have h0 : 0 < p.length := List.length_pos_iff.mpr hp
    obtain ⟨r, k1, k2, k3⟩ := ih q (by
      apply List.length_pos_iff.mp; rw [h2]; simp)
    refine ⟨r, ?_, ?_, fun x => ?_⟩
    · rw [List.foldlM_cons, h1]; exact k1
    · rw [k2, h2]; simp only [List.length_cons, List.length_nil]; omega
    · rw [k3, h3]
      simp only [evalF, List.foldr_cons, List.foldr_nil, List.map_cons, List.prod_cons]
      ring

theorem linProd_eq (ys : List F) : ∃ r, linProd ys = .ok r ∧ r.length = ys.length + 1 ∧
    ∀ x, evalF r x = (ys.map (· - x)).prod := by
  obtain ⟨r, h1, h2, h3⟩ := linProd_aux ys [1] (by simp)
  refine ⟨r, h1, by rw [h2]; simp; omega, fun x => ?_⟩
  rw [h3]; simp [evalF]

/-- the deletion half, evaluated -/
def vDval (α x : F) (dels : List F) (n : Nat) : F :=
  ((List.range n).map fun s => ((dels.take (s + 1)).map (· + α)).prod⁻¹ *
    ((dels.take s).map (· - x)).prod).sum

/-- the addition half, evaluated -/
def vAval (α x : F) (adds : List F) (n : Nat) : F :=
  ((List.range n).map fun s => ((adds.take s).map (· + α)).prod *
    ((adds.drop (s + 1)).map (· - x)).prod).sum

theorem prod_take_ne_zero {l : List F} (h : l.prod ≠ 0) (n : Nat) : (l.take n).prod ≠ 0 := by
  intro h0
  apply h
  rw [← List.take_append_drop n l, List.prod_append, h0, zero_mul]

theorem vD_loop (α : F) (dels : List F) (h : (dels.map (· + α)).prod ≠ 0) (n : Nat)
    (hn : n ≤ dels.length) :
    ∃ r, (List.range n).foldlM (fun vD s => do
        let c ← batchDeletions α (dels.take (s + 1))
        let poly ← linProd (dels.take s)
        Res.ok (polyAdd vD (polyMulScalar poly c))) [] = Res.ok r ∧ r.length = n ∧
      ∀ x, evalF r x = vDval α x dels n := by
  induction n with
  | zero => exact ⟨[], rfl, rfl, fun x => by simp [evalF, vDval]⟩
  | succ n ih =>
    obtain ⟨r, h1, h2, h3⟩ := ih (by omega)
    obtain ⟨q, k1, k2, k3⟩ := linProd_eq (dels.take n)
    have hc : ((dels.take (n + 1)).map (· + α)).prod ≠ 0 := by
      rw [List.map_take]; exact prod_take_ne_zero h _
    refine ⟨polyAdd r (polyMulScalar q ((dels.take (n + 1)).map (· + α)).prod⁻¹), ?_, ?_, fun x => ?_⟩
    · rw [List.range_succ, List.foldlM_append, h1]
      simp only [Res.bind_ok, List.foldlM_cons, List.foldlM_nil, batchDeletions_eq α _ hc, k1,
        Res.pure_eq]
    · rw [length_polyAdd, polyMulScalar, List.length_map, k2, h2, List.length_take]; omega
    · rw [evalF_polyAdd, evalF_mulScalar, h3, k3, vDval, vDval, List.range_succ, List.map_append,
        List.sum_append]
      simp [mul_comm]

theorem vA_loop (α : F) (adds : List F) (n : Nat) (hn : n ≤ adds.length) :
    ∃ r, (List.range n).foldlM (fun vA s => do
        let c := if s = 0 then 1 else batchAdditions α (adds.take s)
        let poly ← linProd (adds.drop (s + 1))
        Res.ok (polyAdd vA (polyMulScalar poly c))) [] = Res.ok r ∧
      r.length = (if n = 0 then 0 else adds.length) ∧
      ∀ x, evalF r x = vAval α x adds n := by
  induction n with
  | zero => exact ⟨[], rfl, rfl, fun x => by simp [evalF, vAval]⟩
  | succ n ih =>
    obtain ⟨r, h1, h2, h3⟩ := ih (by omega)
    obtain ⟨q, k1, k2, k3⟩ := linProd_eq (adds.drop (n + 1))
    have hc : (if n = 0 then 1 else batchAdditions α (adds.take n)) =
        ((adds.take n).map (· + α)).prod := by
      split
      · subst n; simp
      · rw [batchAdditions_eq]
    refine ⟨polyAdd r (polyMulScalar q ((adds.take n).map (· + α)).prod), ?_, ?_, fun x => ?_⟩
    · rw [List.range_succ, List.foldlM_append, h1]
      simp only [Res.bind_ok, List.foldlM_cons, List.foldlM_nil, k1, Res.pure_eq, hc]
    · rw [length_polyAdd, polyMulScalar, List.length_map, k2, h2, List.length_drop]
      split <;> simp <;> omega
    · rw [evalF_polyAdd, evalF_mulScalar, h3, k3, vAval, vAval, List.range_succ, List.map_append,
        List.sum_append]
      simp [mul_comm]

/-- telescoping of the addition half -/
theorem vA_tele (α x : F) (adds : List F) (n : Nat) (hn : n ≤ adds.length) :
    (x + α) * vAval α x adds n =
      ((adds.take n).map (· + α)).prod * ((adds.drop n).map (· - x)).prod
        - (adds.map (· - x)).prod := by
  induction n with
  | zero => simp [vAval]
  | succ n ih =>
    have h1 := ih (by omega)
    have hlt : n < adds.length := by omega
    have h2 : vAval α x adds (n + 1) = vAval α x adds n +
        ((adds.take n).map (· + α)).prod * ((adds.drop (n + 1)).map (· - x)).prod := by
      rw [vAval, vAval, List.range_succ, List.map_append, List.sum_append]; simp
    rw [h2, mul_add, h1, List.take_add_one, List.getElem?_eq_getElem hlt,
      List.drop_eq_getElem_cons hlt]
    simp only [List.map_cons, List.prod_cons, List.map_append, List.prod_append, Option.toList_some,
      List.map_nil, List.prod_nil]
    ring

/-- telescoping of the deletion half -/
theorem vD_tele (α x : F) (dels : List F) (h : (dels.map (· + α)).prod ≠ 0) (n : Nat)
    (hn : n ≤ dels.length) :
    (x + α) * vDval α x dels n =
      1 - ((dels.take n).map (· - x)).prod * ((dels.take n).map (· + α)).prod⁻¹ := by
  induction n with
  | zero => simp [vDval]
  | succ n ih =>
    have h1 := ih (by omega)
    have hlt : n < dels.length := by omega
    have hc : ((dels.take (n + 1)).map (· + α)).prod ≠ 0 := by
      rw [List.map_take]; exact prod_take_ne_zero h _
    have h2 : vDval α x dels (n + 1) = vDval α x dels n +
        ((dels.take (n + 1)).map (· + α)).prod⁻¹ * ((dels.take n).map (· - x)).prod := by
      rw [vDval, vDval, List.range_succ, List.map_append, List.sum_append]; simp
    rw [h2, mul_add, h1]
    rw [List.take_add_one, List.getElem?_eq_getElem hlt] at hc ⊢
    simp only [List.map_cons, List.prod_cons, List.map_append, List.prod_append, Option.toList_some,
      List.map_nil, List.prod_nil, mul_one] at hc ⊢
    obtain ⟨c1, c2⟩ := mul_ne_zero_iff.mp hc
    generalize ((dels.take n).map (· + α)).prod = P at *
    generalize ((dels.take n).map (· - x)).prod = Q at *
    generalize dels[n] = t at *
    field_simp
    ring

/-- What `CreateCoefficients` returns, in closed form. -/
theorem createCoefficients_spec (α : F) (adds dels : List F) (h : (dels.map (· + α)).prod ≠ 0) :
    ∃ cs, createCoefficients α adds dels = .ok cs ∧ cs.length = max adds.length dels.length ∧
      ∀ x, (x + α) * evalF cs x = (adds.map (· + α)).prod * (dels.map (· + α)).prod⁻¹ *
        (dels.map (· - x)).prod - (adds.map (· - x)).prod := by
  obtain ⟨vD, a1, a2, a3⟩ := vD_loop α dels h dels.length le_rfl
  obtain ⟨vA, b1, b2, b3⟩ := vA_loop α adds adds.length le_rfl
  refine ⟨polySub vA (polyMulScalar vD (batchAdditions α adds)), ?_, ?_, fun x => ?_⟩
  · rw [createCoefficients, a1]
    simp only [Res.bind_ok]
    rw [b1]; rfl
  · rw [length_polySub, polyMulScalar, List.length_map, a2, b2]
    split
    · omega
    · rfl
  · rw [evalF_polySub, evalF_mulScalar, a3, b3, batchAdditions_eq, mul_sub, ← mul_assoc,
      vA_tele α x adds _ le_rfl, vD_tele α x dels h _ le_rfl]
    simp only [List.take_length, List.drop_length, List.map_nil, List.prod_nil]
    ring

/-- `CreateCoefficients` never panics, and fails exactly when a deletion is `-α`. -/
theorem createCoefficients_err (α : F) (dels : List F) (h : (dels.map (· + α)).prod = 0) :
    batchDeletions α dels = .err := by
  rw [batchDeletions, batchAdditions_eq, invert, if_pos h]

end Verif.Accumulator
