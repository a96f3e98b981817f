import Verif.Bulletproof.Code
import Verif.Base.Tactics
import Mathlib.Data.List.Basic
import Mathlib.Algebra.BigOperators.Group.List.Lemmas

/-! Vectors of scalars and points: the specification vocabulary of the bulletproof theorems and its algebra. -/

namespace Verif.Bulletproof

open Verif
open Verif.OT (Ev Transcript idx)

variable {F G : Type} [Field F] [DecidableEq F] [AddCommGroup G] [Module F G] [DecidableEq G]

/-! ### specification -/

/-- inner product `⟨a, b⟩` -/
def dot (a b : List F) : F := (List.zipWith (· * ·) a b).sum

/-- multi-scalar multiplication `Σ aᵢ·gᵢ` -/
def msm (g : List G) (a : List F) : G := (List.zipWith (fun p s => s • p) g a).sum

/-- `sᵢ = Π_j xⱼ^{±1}`, with `+1` where bit `j` of `i` (most significant first) is one
(section 3.1 of the bulletproofs paper) -/
def sVec : List F → List F
  | [] => [1]
  | x :: xs => (sVec xs).map (x⁻¹ * ·) ++ (sVec xs).map (x * ·)

/-- `Σ_j xⱼ²·Lⱼ + xⱼ⁻²·Rⱼ` -/
def cross : List F → List G → List G → G
  | x :: xs, l :: ls, r :: rs => (x * x) • l + (x * x)⁻¹ • r + cross xs ls rs
  | _, _, _ => 0

/-- The challenges an inner product argument with cross terms `Ls`, `Rs` draws from the transcript `t`, and the
transcript it leaves behind: each pair is appended, then one challenge is read. -/
def challenges (C : Curve F G) : List G → List G → Transcript → List F × Transcript
  | l :: ls, r :: rs, t =>
    let t := t ++ [.append "addRecursiveL" (C.unc l), .append "addRecursiveR" (C.unc r)]
    let rest := challenges C ls rs (t ++ [.extract "getx"])
    (C.chal t "getx" :: rest.1, rest.2)
  | _, _, t => ([], t)

/-! ### algebra -/

omit [DecidableEq F] [DecidableEq G] in
@[simp] theorem msm_nil (a : List F) : msm ([] : List G) a = 0 := by simp [msm]

omit [DecidableEq F] [DecidableEq G] in
@[simp] theorem msm_nil' (g : List G) : msm g ([] : List F) = 0 := by simp [msm]

omit [DecidableEq F] [DecidableEq G] in
@[simp] theorem msm_cons (p : G) (g : List G) (s : F) (a : List F) :
    msm (p :: g) (s :: a) = s • p + msm g a := by simp [msm]

omit [DecidableEq F] in
@[simp] theorem dot_nil (a : List F) : dot ([] : List F) a = 0 := by simp [dot]

omit [DecidableEq F] in
@[simp] theorem dot_cons (x : F) (a : List F) (y : F) (b : List F) :
    dot (x :: a) (y :: b) = x * y + dot a b := by simp [dot]

omit [DecidableEq F] in
theorem dot_eq_msm (a b : List F) : dot a b = msm (G := F) a b := by
  unfold dot msm
  congr 1
  induction a generalizing b with
  | nil => simp
  | cons x a ih => cases b with
    | nil => simp
    | cons y b => simp [ih, mul_comm]

omit [DecidableEq F] in
theorem dot_comm (a b : List F) : dot a b = dot b a := by
  induction a generalizing b with
  | nil => cases b <;> simp [dot]
  | cons x a ih => cases b with
    | nil => simp [dot]
    | cons y b => simp [ih, mul_comm]

omit [DecidableEq F] [DecidableEq G] in
theorem msm_append {g1 g2 : List G} {a1 a2 : List F} (h : g1.length = a1.length) :
    msm (g1 ++ g2) (a1 ++ a2) = msm g1 a1 + msm g2 a2 := by
  unfold msm
  rw [List.zipWith_append h, List.sum_append]

omit [DecidableEq F] in
theorem dot_append {a1 a2 b1 b2 : List F} (h : a1.length = b1.length) :
    dot (a1 ++ a2) (b1 ++ b2) = dot a1 b1 + dot a2 b2 := by
  rw [dot_eq_msm, dot_eq_msm, dot_eq_msm, msm_append h]

omit [DecidableEq F] [DecidableEq G] in
theorem msm_mulScs (g : List G) (x : F) (a : List F) : msm g (mulScs x a) = x • msm g a := by
  induction g generalizing a with
  | nil => simp
  | cons p g ih => cases a with
    | nil => simp [mulScs]
    | cons y a =>
      have := ih a
      simp only [mulScs, List.map_cons, msm_cons] at this ⊢
      rw [this, smul_add, smul_smul, mul_comm]

omit [DecidableEq F] [DecidableEq G] in
theorem msm_mulPts (g : List G) (x : F) (a : List F) : msm (mulPts x g) a = x • msm g a := by
  induction g generalizing a with
  | nil => simp [mulPts]
  | cons p g ih => cases a with
    | nil => simp
    | cons y a =>
      have := ih a
      simp only [mulPts, List.map_cons, msm_cons] at this ⊢
      rw [this, smul_add, smul_smul, smul_smul, mul_comm]

omit [DecidableEq F] [DecidableEq G] in
theorem msm_add_left {g h : List G} {a : List F} (e : g.length = h.length) :
    msm (List.zipWith (· + ·) g h) a = msm g a + msm h a := by
  induction g generalizing h a with
  | nil => cases h <;> simp_all
  | cons p g ih => cases h with
    | nil => simp at e
    | cons q h => cases a with
      | nil => simp
      | cons y a =>
        simp only [List.zipWith_cons_cons, msm_cons, ih (by simpa using e), smul_add]
        abel

omit [DecidableEq F] [DecidableEq G] in
theorem msm_add_right {g : List G} {a b : List F} (e : a.length = b.length) :
    msm g (List.zipWith (· + ·) a b) = msm g a + msm g b := by
  induction g generalizing a b with
  | nil => simp
  | cons p g ih => cases a with
    | nil => cases b <;> simp_all
    | cons x a => cases b with
      | nil => simp at e
      | cons y b =>
        simp only [List.zipWith_cons_cons, msm_cons, ih (by simpa using e), add_smul]
        abel

omit [DecidableEq F] [DecidableEq G] in
theorem msm_sub_right {g : List G} {a b : List F} (e : a.length = b.length) :
    msm g (List.zipWith (· - ·) a b) = msm g a - msm g b := by
  induction g generalizing a b with
  | nil => simp
  | cons p g ih => cases a with
    | nil => cases b <;> simp_all
    | cons x a => cases b with
      | nil => simp at e
      | cons y b =>
        simp only [List.zipWith_cons_cons, msm_cons, ih (by simpa using e), sub_smul]
        abel

omit [DecidableEq F] in
theorem mulScs_eq_mulPts (x : F) (a : List F) : mulScs x a = mulPts (G := F) x a := by
  simp [mulScs, mulPts, mul_comm]

omit [DecidableEq F] in
theorem dot_mulScs_left (x : F) (a b : List F) : dot (mulScs x a) b = x * dot a b := by
  rw [dot_eq_msm, dot_eq_msm, mulScs_eq_mulPts, msm_mulPts, smul_eq_mul]

omit [DecidableEq F] in
theorem dot_mulScs_right (x : F) (a b : List F) : dot a (mulScs x b) = x * dot a b := by
  rw [dot_eq_msm, dot_eq_msm, msm_mulScs, smul_eq_mul]

omit [DecidableEq F] in
theorem dot_add_left {a b c : List F} (e : a.length = b.length) :
    dot (List.zipWith (· + ·) a b) c = dot a c + dot b c := by
  rw [dot_eq_msm, dot_eq_msm, dot_eq_msm, msm_add_left e]

omit [DecidableEq F] in
theorem dot_add_right {a b c : List F} (e : b.length = c.length) :
    dot a (List.zipWith (· + ·) b c) = dot a b + dot a c := by
  rw [dot_eq_msm, dot_eq_msm, dot_eq_msm, msm_add_right e]

omit [DecidableEq F] in
theorem dot_sub_right {a b c : List F} (e : b.length = c.length) :
    dot a (List.zipWith (· - ·) b c) = dot a b - dot a c := by
  rw [dot_eq_msm, dot_eq_msm, dot_eq_msm, msm_sub_right e]

omit [DecidableEq F] in
theorem dot_sub_left {a b c : List F} (e : a.length = b.length) :
    dot (List.zipWith (· - ·) a b) c = dot a c - dot b c := by
  rw [dot_comm, dot_sub_right e, dot_comm, dot_comm c b]

omit [DecidableEq F] [DecidableEq G] in
@[simp] theorem length_mulScs (x : F) (a : List F) : (mulScs x a).length = a.length := by simp [mulScs]

omit [DecidableEq F] [DecidableEq G] in
@[simp] theorem length_mulPts (x : F) (g : List G) : (mulPts x g).length = g.length := by simp [mulPts]

/-! ### the helpers succeed on well-formed input -/

omit [DecidableEq F] in
theorem foldl_dot (l : List (F × F)) (acc : F) :
    l.foldl (fun acc p => p.1 * p.2 + acc) acc = acc + (l.map (fun p => p.1 * p.2)).sum := by
  induction l generalizing acc with
  | nil => simp
  | cons p l ih => simp only [List.foldl_cons, List.map_cons, List.sum_cons, ih]; ring

omit [DecidableEq F] in
theorem innerProduct_ok {a b : List F} (h : a.length = b.length) (h0 : 0 < a.length) :
    innerProduct a b = .ok (dot a b) := by
  unfold innerProduct dot
  rw [if_neg (by simp [h]), if_neg (by omega), foldl_dot]
  congr 1
  rw [zero_add, List.zip, List.map_zipWith]

omit [DecidableEq F] [DecidableEq G] in
theorem sop_ok {g : List G} {a : List F} (h : g.length = a.length) : sop g a = .ok (msm g a) := by
  unfold sop msm
  rw [if_pos h]

theorem split_ok {α : Type} {l : List α} {m : Nat} (h : l.length = 2 * m) (hm : 0 < m) :
    split l = .ok (l.take m, l.drop m) := by
  unfold split
  have h1 : l.length &&& 1 = 0 := by rw [Nat.and_one_is_mod]; omega
  have h2 : l.length >>> 1 = m := by rw [Nat.shiftRight_eq_div_pow]; omega
  rw [if_neg (by omega), if_neg (by simp [h1]), h2]

omit [Field F] [DecidableEq F] [Module F G] [DecidableEq G] [AddCommGroup G] in
theorem pair_ok {α : Type} {op : α → α → α} {a b : List α} (h : a.length = b.length) :
    (if a.length ≠ b.length then (Res.err : Res (List α)) else .ok (List.zipWith op a b)) =
      .ok (List.zipWith op a b) := by
  rw [if_neg (by simp [h])]

omit [DecidableEq F] [DecidableEq G] in
theorem getxs_eq (C : Curve F G) {ls rs : List G} (h : ls.length = rs.length) (t : Transcript) :
    getxs C ls rs t = .ok (challenges C ls rs t) := by
  induction ls generalizing rs t with
  | nil => cases rs <;> simp_all [getxs, challenges]
  | cons l ls ih => cases rs with
    | nil => simp at h
    | cons r rs =>
      simp only [getxs, calcxIpp, Curve.ext, Curve.app, challenges, ih (by simpa using h),
        List.append_assoc, List.cons_append, List.nil_append, Res.bind_ok]

omit [DecidableEq F] [DecidableEq G] in
theorem challenges_length (C : Curve F G) {ls rs : List G} (h : ls.length = rs.length) (t : Transcript) :
    (challenges C ls rs t).1.length = ls.length := by
  induction ls generalizing rs t with
  | nil => cases rs <;> simp_all [challenges]
  | cons l ls ih => cases rs with
    | nil => simp at h
    | cons r rs => simp [challenges, ih (by simpa using h)]

omit [DecidableEq F] in
@[simp] theorem sVec_length (xs : List F) : (sVec xs).length = 2 ^ xs.length := by
  induction xs with
  | nil => rfl
  | cons x xs ih => simp [sVec, ih, pow_succ]; omega

omit [DecidableEq G] in
theorem invert_ok (C : Curve F G) {x : F} (h : x ≠ 0) : C.invert x = .ok x⁻¹ := by
  unfold Curve.invert; rw [if_neg (by simp [h])]

end Verif.Bulletproof
