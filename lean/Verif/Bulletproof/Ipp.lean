import Verif.Bulletproof.SVec

/-! C72: the inner product argument (`InnerProductProver.Prove`, `InnerProductVerifier.Verify`,
`VerifyFromRangeProof`). -/

set_option linter.unusedSectionVars false

namespace Verif.Bulletproof

open Verif
open Verif.OT (Ev Transcript idx)

variable {F G : Type} [Field F] [DecidableEq F] [AddCommGroup G] [Module F G] [DecidableEq G]

/-- The final check of section 3.1: `g^(a·s) · h^(b·s⁻¹) · u^(ab) = P · Π L_j^(x_j²) R_j^(x_j⁻²)`,
written additively. -/
def IppEq (g h : List G) (u P : G) (p : Ipp F G) (xs : List F) : Prop :=
  p.a • msm g (sVec xs) + p.b • msm h ((sVec xs).map (·⁻¹)) + (p.a * p.b) • u =
    P + cross xs p.capLs p.capRs

instance (g h : List G) (u P : G) (p : Ipp F G) (xs : List F) : Decidable (IppEq g h u P p xs) := by
  unfold IppEq; infer_instance

/-- The statement proved by an inner product argument: `P = g^a h^b u^⟨a,b⟩` -/
def commit (g h : List G) (u : G) (a b : List F) : G := msm g a + msm h b + dot a b • u

/-! ### the verifier -/

theorem getRHS_eq (C : Curve F G) {ls rs : List G} {xs : List F} (h1 : ls.length = rs.length)
    (h2 : xs.length = ls.length) (h0 : (0 : F) ∉ xs) (P : G) :
    getRHS C P ls rs xs = .ok (P + cross xs ls rs) := by
  induction ls generalizing rs xs P with
  | nil => cases xs <;> cases rs <;> simp_all [getRHS, cross]
  | cons l ls ih =>
    cases rs with
    | nil => simp at h1
    | cons r rs => cases xs with
      | nil => simp at h2
      | cons x xs =>
        have hx : x ≠ 0 := fun e => h0 (by simp [e])
        rw [getRHS, invert_ok C (mul_ne_zero hx hx), Res.bind_ok,
          ih (by simpa using h1) (by simpa using h2) (fun e => h0 (by simp [e])), cross]
        congr 1; abel

theorem getLHS_eq (C : Curve F G) {g h : List G} {xs : List F} (hg : g.length = 2 ^ xs.length)
    (hh : h.length = 2 ^ xs.length) (h0 : (0 : F) ∉ xs) (u : G) (p : Ipp F G) :
    getLHS C u p g h (sVec xs) =
      .ok (p.a • msm g (sVec xs) + p.b • msm h ((sVec xs).map (·⁻¹)) + (p.a * p.b) • u) := by
  unfold getLHS
  rw [invertScalars_eq C (sVec_ne_zero h0), Res.bind_ok, sop_ok (by simp [hg]), Res.bind_ok,
    sop_ok (by simp [hh]), Res.bind_ok, msm_mulScs, msm_mulScs]

theorem shl1_eq {k : Nat} (h : k < 63) : shl1 k = ((2 ^ k : Nat) : Int) := by
  unfold shl1; rw [if_pos h]; push_cast; rfl

theorem slice0_ok {α : Type} {l : List α} {n : Nat} (h : n ≤ l.length) :
    slice0 l (n : Int) = .ok (l.take n) := by
  unfold slice0
  rw [if_pos ⟨Int.natCast_nonneg n, by exact_mod_cast h⟩, Int.toNat_natCast]

/-- What `Verify` decides. -/
theorem verify_eq (C : Curve F G) (gens : Gens G) (P u : G) (p : Ipp F G) (t : Transcript)
    (hGH : gens.G.length = gens.H.length) (hLR : p.capLs.length = p.capRs.length)
    (hk : p.capLs.length < 63) (hn : 2 ^ p.capLs.length ≤ gens.G.length)
    (h0 : (0 : F) ∉ (challenges C p.capLs p.capRs t).1) :
    verify C gens P u p t =
      .ok (decide (IppEq (gens.G.take (2 ^ p.capLs.length)) (gens.H.take (2 ^ p.capLs.length)) u P p
        (challenges C p.capLs p.capRs t).1), (challenges C p.capLs p.capRs t).2) := by
  have hlen := challenges_length C hLR t
  unfold verify
  rw [if_neg (by simp [hLR]), if_neg (by simp [hGH])]
  simp only [shl1_eq hk]
  rw [if_neg (by exact_mod_cast not_lt.2 hn), slice0_ok hn, Res.bind_ok, slice0_ok (hGH ▸ hn), Res.bind_ok,
    getxs_eq C hLR, Res.bind_ok]
  rw [← hlen, getsNew_eq C h0, Res.bind_ok, getLHS_eq C (by rw [List.length_take, hlen]; omega)
    (by rw [List.length_take, hlen]; omega) h0, Res.bind_ok, getRHS_eq C hLR hlen h0, Res.bind_ok]
  rfl

/-- What `VerifyFromRangeProof` decides. -/
theorem verifyFromRange_eq (C : Curve F G) (g h : List G) (P u : G) (tHat : F) (p : Ipp F G) (t : Transcript)
    (hLR : p.capLs.length = p.capRs.length) (hk : p.capLs.length < 63)
    (hg : g.length = 2 ^ p.capLs.length) (hh : h.length = 2 ^ p.capLs.length)
    (h0 : (0 : F) ∉ (challenges C p.capLs p.capRs t).1) :
    verifyFromRange C g h P u tHat p t =
      .ok (decide (IppEq g h u (P + tHat • u) p (challenges C p.capLs p.capRs t).1),
        (challenges C p.capLs p.capRs t).2) := by
  have hlen := challenges_length C hLR t
  unfold verifyFromRange
  simp only [shl1_eq hk]
  rw [getxs_eq C hLR, Res.bind_ok]
  rw [← hlen, gets_eq C h0, Res.bind_ok, getLHS_eq C (by rw [hg, hlen]) (by rw [hh, hlen]) h0, Res.bind_ok,
    getRHS_eq C hLR hlen h0, Res.bind_ok]
  rfl

/-! ### the prover -/

theorem take_drop_msm {g : List G} {a : List F} {m : Nat} (hg : g.length = 2 * m) (ha : a.length = 2 * m) :
    msm g a = msm (g.take m) (a.take m) + msm (g.drop m) (a.drop m) := by
  conv_lhs => rw [← List.take_append_drop m g, ← List.take_append_drop m a]
  exact msm_append (by simp; omega)

theorem take_drop_dot {a b : List F} {m : Nat} (ha : a.length = 2 * m) (hb : b.length = 2 * m) :
    dot a b = dot (a.take m) (b.take m) + dot (a.drop m) (b.drop m) := by
  conv_lhs => rw [← List.take_append_drop m a, ← List.take_append_drop m b]
  exact dot_append (by simp; omega)

/-- folding of the generators by one challenge -/
theorem msm_fold {g : List G} {s : List F} {m : Nat} (hg : g.length = 2 * m) (hs : s.length = m) (x y : F) :
    msm g (s.map (x * ·) ++ s.map (y * ·)) =
      msm (List.zipWith (· + ·) (mulPts x (g.take m)) (mulPts y (g.drop m))) s := by
  have e : ∀ x : F, s.map (x * ·) = mulScs x s := fun x => by simp [mulScs, mul_comm]
  conv_lhs => rw [← List.take_append_drop m g]
  rw [e, e, msm_append (by simp [hs]; omega), msm_mulScs, msm_mulScs,
    msm_add_left (by simp; omega), msm_mulPts, msm_mulPts]

/-- one folding step of the statement -/
theorem commit_fold {a b : List F} {g h : List G} {m : Nat} (ha : a.length = 2 * m) (hb : b.length = 2 * m)
    (hg : g.length = 2 * m) (hh : h.length = 2 * m) {x : F} (hx : x ≠ 0) (u : G) :
    commit (List.zipWith (· + ·) (mulPts x⁻¹ (g.take m)) (mulPts x (g.drop m)))
        (List.zipWith (· + ·) (mulPts x (h.take m)) (mulPts x⁻¹ (h.drop m))) u
        (List.zipWith (· + ·) (mulScs x (a.take m)) (mulScs x⁻¹ (a.drop m)))
        (List.zipWith (· + ·) (mulScs x⁻¹ (b.take m)) (mulScs x (b.drop m))) =
      commit g h u a b +
        ((x * x) • (msm (g.drop m) (a.take m) + msm (h.take m) (b.drop m) +
            dot (a.take m) (b.drop m) • u) +
          (x * x)⁻¹ • (msm (g.take m) (a.drop m) + msm (h.drop m) (b.take m) +
            dot (a.drop m) (b.take m) • u)) := by
  unfold commit
  rw [take_drop_msm hg ha, take_drop_msm hh hb, take_drop_dot ha hb]
  have la : (a.take m).length = (a.drop m).length := by simp; omega
  have lb : (b.take m).length = (b.drop m).length := by simp; omega
  have lg : (g.take m).length = (g.drop m).length := by simp; omega
  have lh : (h.take m).length = (h.drop m).length := by simp; omega
  generalize a.take m = a1 at *; generalize a.drop m = a2 at *
  generalize b.take m = b1 at *; generalize b.drop m = b2 at *
  generalize g.take m = g1 at *; generalize g.drop m = g2 at *
  generalize h.take m = h1 at *; generalize h.drop m = h2 at *
  rw [msm_add_left (by simpa), msm_add_right (by simpa), msm_add_right (by simpa),
    msm_add_left (by simpa), msm_add_right (by simpa), msm_add_right (by simpa),
    dot_add_left (by simpa), dot_add_right (by simpa), dot_add_right (by simpa)]
  simp only [msm_mulPts, msm_mulScs, dot_mulScs_left, dot_mulScs_right, smul_smul, smul_add, add_smul]
  have e1 : x⁻¹ * x = 1 := inv_mul_cancel₀ hx
  have e2 : x * x⁻¹ = 1 := mul_inv_cancel₀ hx
  have e3 : x⁻¹ * x⁻¹ = (x * x)⁻¹ := by rw [mul_inv]
  have e4 : ∀ c : F, x * (x⁻¹ * c) = c := fun c => by rw [← mul_assoc, e2, one_mul]
  have e5 : ∀ c : F, x⁻¹ * (x * c) = c := fun c => by rw [← mul_assoc, e1, one_mul]
  have e6 : ∀ c : F, x⁻¹ * (x⁻¹ * c) = (x * x)⁻¹ * c := fun c => by rw [← mul_assoc, e3]
  have e7 : ∀ c : F, x * (x * c) = x * x * c := fun c => by rw [mul_assoc]
  simp only [e1, e2, e3, e4, e5, e6, e7, one_smul]
  abel

/-- The curve `C` with ed25519's inversion, which answers zero on zero instead of an error. -/
def Curve.silent (C : Curve F G) : Curve F G := { C with invErr := false }

theorem silent_eq {C : Curve F G} (h : C.invErr = false) : C.silent = C := by
  unfold Curve.silent; rw [← h]

@[simp] theorem silent_challenges (C : Curve F G) (Ls Rs : List G) (t : Transcript) :
    challenges C.silent Ls Rs t = challenges C Ls Rs t := by
  induction Ls generalizing Rs t with
  | nil => rfl
  | cons l Ls ih => cases Rs with
    | nil => rfl
    | cons r Rs => simp only [challenges, ih]; rfl

@[simp] theorem silent_invert (C : Curve F G) (x : F) : C.silent.invert x = .ok x⁻¹ := by
  unfold Curve.invert; rw [if_neg (by simp [Curve.silent])]

/-- one round of the recursion -/
theorem proveRec_succ (C : Curve F G) (u : G) (k fuel : Nat) (a b : List F) (g h capLs capRs : List G)
    (t : Transcript) (ha : a.length = 2 * 2 ^ k) (hb : b.length = 2 * 2 ^ k) (hg : g.length = 2 * 2 ^ k)
    (hh : h.length = 2 * 2 ^ k) :
    ∃ capL capR, capL = msm (g.drop (2 ^ k)) (a.take (2 ^ k)) + msm (h.take (2 ^ k)) (b.drop (2 ^ k)) +
      dot (a.take (2 ^ k)) (b.drop (2 ^ k)) • u ∧
      capR = msm (g.take (2 ^ k)) (a.drop (2 ^ k)) + msm (h.drop (2 ^ k)) (b.take (2 ^ k)) +
      dot (a.drop (2 ^ k)) (b.take (2 ^ k)) • u ∧
      ∀ t1 x, t1 = t ++ [Ev.append "addRecursiveL" (C.unc capL), Ev.append "addRecursiveR" (C.unc capR)] →
      x = C.chal t1 "getx" →
      proveRec C u (fuel + 1) a b g h capLs capRs t =
        (C.invert x).bind fun xInv => proveRec C u fuel
          (List.zipWith (· + ·) (mulScs x (a.take (2 ^ k))) (mulScs xInv (a.drop (2 ^ k))))
          (List.zipWith (· + ·) (mulScs xInv (b.take (2 ^ k))) (mulScs x (b.drop (2 ^ k))))
          (List.zipWith (· + ·) (mulPts xInv (g.take (2 ^ k))) (mulPts x (g.drop (2 ^ k))))
          (List.zipWith (· + ·) (mulPts x (h.take (2 ^ k))) (mulPts xInv (h.drop (2 ^ k))))
          (capLs ++ [capL]) (capRs ++ [capR]) (t1 ++ [Ev.extract "getx"]) := by
  have hm : 0 < 2 ^ k := by positivity
  refine ⟨_, _, rfl, rfl, ?_⟩
  intro t1 x ht1 hx
  conv_lhs => unfold proveRec
  rw [if_neg (by omega), if_neg (by omega), if_neg (by omega)]
  split
  · next h1 => simp at ha; omega
  simp only
  rw [split_ok ha hm, Res.bind_ok]; simp only
  rw [split_ok hb hm, Res.bind_ok]; simp only
  rw [split_ok hg hm, Res.bind_ok]; simp only
  rw [split_ok hh hm, Res.bind_ok]; simp only
  rw [innerProduct_ok (by simp; omega) (by simp; omega), Res.bind_ok,
    innerProduct_ok (by simp; omega) (by simp; omega), Res.bind_ok,
    sop_ok (by simp; omega), Res.bind_ok, sop_ok (by simp; omega), Res.bind_ok,
    sop_ok (by simp; omega), Res.bind_ok, sop_ok (by simp; omega), Res.bind_ok]
  simp only [calcxIpp, Curve.ext, Curve.app, List.append_assoc, List.cons_append, List.nil_append]
  rw [← ht1, ← hx]
  have e : ∀ e1 e2 : Ev, t1 = t ++ [e1, e2] → t ++ [e1, e2, Ev.extract "getx"] = t1 ++ [Ev.extract "getx"] := by
    intro e1 e2 h; rw [h]; simp
  rw [e _ _ ht1]
  congr 1
  funext xInv
  unfold addPts addPair
  rw [pair_ok (by simp; omega), Res.bind_ok, pair_ok (by simp; omega), Res.bind_ok,
    pair_ok (by simp; omega), Res.bind_ok, pair_ok (by simp; omega), Res.bind_ok]

/-- The run with silent inversion always ends with a proof; the real one is the same run if no challenge is
zero, and stops with an error at the first zero challenge if inversion reports it. -/
theorem proveRec_spec (C : Curve F G) (u : G) : ∀ (k fuel : Nat), k ≤ fuel →
    ∀ (a b : List F) (g h capLs capRs : List G) (t : Transcript),
      a.length = 2 ^ k → b.length = 2 ^ k → g.length = 2 ^ k → h.length = 2 ^ k →
    ∃ a0 b0 Ls Rs, proveRec C.silent u fuel a b g h capLs capRs t =
        .ok (⟨a0, b0, capLs ++ Ls, capRs ++ Rs⟩, (challenges C Ls Rs t).2) ∧
      Ls.length = k ∧ Rs.length = k ∧
      (C.invErr = true → (0 : F) ∈ (challenges C Ls Rs t).1 →
        proveRec C u fuel a b g h capLs capRs t = .err) ∧
      ((0 : F) ∉ (challenges C Ls Rs t).1 →
        proveRec C u fuel a b g h capLs capRs t =
          .ok (⟨a0, b0, capLs ++ Ls, capRs ++ Rs⟩, (challenges C Ls Rs t).2) ∧
        IppEq g h u (commit g h u a b) ⟨a0, b0, Ls, Rs⟩ (challenges C Ls Rs t).1) := by
  intro k
  induction k with
  | zero =>
    intro fuel _ a b g h capLs capRs t ha hb hg hh
    obtain ⟨a0, rfl⟩ := List.length_eq_one_iff.1 ha
    obtain ⟨b0, rfl⟩ := List.length_eq_one_iff.1 hb
    obtain ⟨g0, rfl⟩ := List.length_eq_one_iff.1 hg
    obtain ⟨h0, rfl⟩ := List.length_eq_one_iff.1 hh
    refine ⟨a0, b0, [], [], ?_, rfl, rfl, by simp [challenges], fun _ => ⟨?_, ?_⟩⟩
    · unfold proveRec
      simp [challenges]
    · unfold proveRec
      simp [challenges]
    · simp [IppEq, commit, challenges, sVec, cross, msm, dot]
  | succ k ih =>
    intro fuel hf a b g h capLs capRs t ha hb hg hh
    obtain ⟨fuel, rfl⟩ : ∃ f, fuel = f + 1 := ⟨fuel - 1, by omega⟩
    have ha' : a.length = 2 * 2 ^ k := by rw [ha, pow_succ]; ring
    have hb' : b.length = 2 * 2 ^ k := by rw [hb, pow_succ]; ring
    have hg' : g.length = 2 * 2 ^ k := by rw [hg, pow_succ]; ring
    have hh' : h.length = 2 * 2 ^ k := by rw [hh, pow_succ]; ring
    obtain ⟨capL, capR, hL, hR, hC⟩ := proveRec_succ C u k fuel a b g h capLs capRs t ha' hb' hg' hh'
    obtain ⟨capL', capR', hL', hR', hS⟩ := proveRec_succ C.silent u k fuel a b g h capLs capRs t ha' hb' hg' hh'
    rw [← hL] at hL'
    rw [← hR] at hR'
    subst hL' hR'
    set t1 := t ++ [Ev.append "addRecursiveL" (C.unc capL'), Ev.append "addRecursiveR" (C.unc capR')] with ht1
    set x := C.chal t1 "getx" with hxd
    have hC := hC t1 x ht1 hxd
    have hS := hS t1 x ht1 hxd
    rw [silent_invert] at hS
    obtain ⟨a0, b0, Ls, Rs, hp, hl1, hl2, hz, heq⟩ := ih fuel (by omega)
        (List.zipWith (· + ·) (mulScs x (a.take (2 ^ k))) (mulScs x⁻¹ (a.drop (2 ^ k))))
        (List.zipWith (· + ·) (mulScs x⁻¹ (b.take (2 ^ k))) (mulScs x (b.drop (2 ^ k))))
        (List.zipWith (· + ·) (mulPts x⁻¹ (g.take (2 ^ k))) (mulPts x (g.drop (2 ^ k))))
        (List.zipWith (· + ·) (mulPts x (h.take (2 ^ k))) (mulPts x⁻¹ (h.drop (2 ^ k))))
        (capLs ++ [capL']) (capRs ++ [capR']) (t1 ++ [Ev.extract "getx"])
        (by simp; omega) (by simp; omega) (by simp; omega) (by simp; omega)
    have hch : challenges C (capL' :: Ls) (capR' :: Rs) t =
        (x :: (challenges C Ls Rs (t1 ++ [Ev.extract "getx"])).1,
          (challenges C Ls Rs (t1 ++ [Ev.extract "getx"])).2) := by
      simp only [challenges, ← ht1, ← hxd]
    refine ⟨a0, b0, capL' :: Ls, capR' :: Rs, ?_, by simp [hl1], by simp [hl2], ?_, ?_⟩
    · rw [hS, hch]
      refine Eq.trans hp ?_
      simp
    · intro hi h0
      rw [hch, List.mem_cons] at h0
      rw [hC]
      by_cases hx : x = 0
      · have : C.invert x = .err := by unfold Curve.invert; rw [if_pos ⟨hx, hi⟩]
        rw [this]; rfl
      · rw [invert_ok C hx]
        exact hz hi (h0.resolve_left fun e => hx e.symm)
    · intro h0
      rw [hch, List.mem_cons, not_or] at h0
      have hx : x ≠ 0 := fun e => h0.1 e.symm
      obtain ⟨hrun, this⟩ := heq h0.2
      refine ⟨?_, ?_⟩
      · rw [hC, invert_ok C hx, hch]
        refine Eq.trans hrun ?_
        simp
      have hlen := challenges_length C (hl1.trans hl2.symm) (t1 ++ [Ev.extract "getx"])
      rw [hch]
      unfold IppEq at this ⊢
      simp only
      set xs := (challenges C Ls Rs (t1 ++ [Ev.extract "getx"])).1 with hxs
      have hs : (sVec xs).length = 2 ^ k := by rw [sVec_length, hlen, hl1]
      rw [commit_fold ha' hb' hg' hh' hx u, ← msm_fold hg' hs, ← msm_fold hh' (by simpa using hs),
        ← hL, ← hR] at this
      rw [sVec, cross, List.map_append, List.map_map, List.map_map]
      have e1 : (fun y : F => y⁻¹) ∘ (fun y => x⁻¹ * y) = (fun y => x * y) ∘ (fun y => y⁻¹) := by
        funext y; simp [mul_inv, mul_comm]
      have e2 : (fun y : F => y⁻¹) ∘ (fun y => x * y) = (fun y => x⁻¹ * y) ∘ (fun y => y⁻¹) := by
        funext y; simp [mul_inv, mul_comm]
      rw [e1, e2, ← List.map_map, ← List.map_map, this]
      abel

theorem proveRec_quiet {C : Curve F G} (hi : C.invErr = false) (u : G) {k fuel : Nat} (hk : k ≤ fuel)
    (a b : List F) (g h capLs capRs : List G) (t : Transcript) (ha : a.length = 2 ^ k) (hb : b.length = 2 ^ k)
    (hg : g.length = 2 ^ k) (hh : h.length = 2 ^ k) :
    ∃ a0 b0 Ls Rs, proveRec C u fuel a b g h capLs capRs t =
        .ok (⟨a0, b0, capLs ++ Ls, capRs ++ Rs⟩, (challenges C Ls Rs t).2) ∧
      Ls.length = k ∧ Rs.length = k ∧
      ((0 : F) ∉ (challenges C Ls Rs t).1 →
        IppEq g h u (commit g h u a b) ⟨a0, b0, Ls, Rs⟩ (challenges C Ls Rs t).1) := by
  obtain ⟨a0, b0, Ls, Rs, h1, h2, h3, _, h5⟩ := proveRec_spec C u k fuel hk a b g h capLs capRs t ha hb hg hh
  rw [silent_eq hi] at h1
  exact ⟨a0, b0, Ls, Rs, h1, h2, h3, fun h0 => (h5 h0).2⟩

theorem isPow2_two_pow (k : Nat) : isPowerOfTwo (2 ^ k) = true := by
  unfold isPowerOfTwo
  rw [beq_iff_eq]
  exact Nat.eq_of_testBit_eq fun i => by
    rw [Nat.testBit_and, Nat.testBit_two_pow_sub_one, Nat.testBit_two_pow, Nat.zero_testBit]
    by_cases h : k = i
    · subst h; simp
    · simp [h]

/-- **C72 (completeness).** For vectors `a`, `b` of the same power-of-two length that the generators cover,
`Prove` returns a proof that `Verify` accepts for exactly the statement `P = g^a h^b u^⟨a,b⟩` and no other,
whatever the transcript's challenges are, provided none of those the run draws is zero; with an inversion that
reports zero, drawing a zero challenge is an error.  (`C.silent` is the curve with an inversion that does not
report: its run always ends, and names the challenges drawn.) -/
theorem C72_completeness (C : Curve F G) (gens : Gens G) (a b : List F) (u : G) (t : Transcript) (k : Nat)
    (hGH : gens.G.length = gens.H.length) (hk : k < 63) (hn : 2 ^ k ≤ gens.G.length)
    (ha : a.length = 2 ^ k) (hb : b.length = 2 ^ k) :
    ∃ p t', prove C.silent gens a b u t = .ok (p, t') ∧ p.capLs.length = k ∧ p.capRs.length = k ∧
      (C.invErr = true → (0 : F) ∈ (challenges C p.capLs p.capRs t).1 → prove C gens a b u t = .err) ∧
      ((0 : F) ∉ (challenges C p.capLs p.capRs t).1 → prove C gens a b u t = .ok (p, t') ∧
        ∀ P, verify C gens P u p t =
          .ok (decide (P = msm (gens.G.take (2 ^ k)) a + msm (gens.H.take (2 ^ k)) b + dot a b • u), t')) := by
  have hpos : 0 < 2 ^ k := by positivity
  have hp : ∀ C : Curve F G, prove C gens a b u t =
      proveRec C u a.length a b (gens.G.take (2 ^ k)) (gens.H.take (2 ^ k)) [] [] t := by
    intro C
    unfold prove
    rw [if_neg (by rw [ha, isPow2_two_pow]; simp), if_neg (by simp [hGH]),
      innerProduct_ok (by omega) (by omega), Res.bind_ok, if_neg (by omega), ha, hb,
      slice0_ok hn, Res.bind_ok, slice0_ok (hGH ▸ hn), Res.bind_ok]
  rw [hp, hp]
  obtain ⟨a0, b0, Ls, Rs, h1, h2, h3, h4, h5⟩ := proveRec_spec C u k a.length
    (by rw [ha]; exact Nat.lt_two_pow_self.le) a b (gens.G.take (2 ^ k)) (gens.H.take (2 ^ k)) [] [] t ha hb
    (by simp; omega) (by simp; omega)
  refine ⟨⟨a0, b0, Ls, Rs⟩, (challenges C Ls Rs t).2, by simpa using h1, h2, h3, h4, ?_⟩
  intro h0
  obtain ⟨hr, h6⟩ := h5 h0
  refine ⟨by simpa using hr, fun P => ?_⟩
  have hv := verify_eq C gens P u ⟨a0, b0, Ls, Rs⟩ t hGH (h2.trans h3.symm) (by rw [h2]; exact hk)
    (by simp only [h2]; exact hn) h0
  rw [hv]
  simp only [h2]
  congr 2
  unfold IppEq commit at h6
  rw [decide_eq_decide]
  unfold IppEq
  rw [h6]
  exact ⟨fun e => (add_right_cancel e).symm, fun e => by rw [e]⟩

/-- **C72 (generators).** `getGeneratorPoints(n)` yields `n` generators on each side, the first and the second
`n` hashed points, so that the two sides have equal length and no generator is used twice when the hashed points
are distinct; `n = 0` is refused, a negative `n` panics. -/
theorem C72_generators (n : Int) (pt : Nat → G) :
    (1 ≤ n → ∃ gens : Gens G, getGenerators n pt = .ok gens ∧
      gens.G = (List.range n.toNat).map pt ∧ gens.H = (List.range n.toNat).map (fun i => pt (n.toNat + i)) ∧
      ((∀ i j, pt i = pt j → i = j) → (gens.G ++ gens.H).Nodup)) ∧
    (n = 0 → getGenerators n pt = .err) ∧ (n < 0 → getGenerators n pt = .panic) := by
  refine ⟨fun h => ?_, fun h => ?_, fun h => ?_⟩
  · have e : (List.range (n.toNat * 2)).map pt =
        (List.range n.toNat).map pt ++ (List.range n.toNat).map (fun i => pt (n.toNat + i)) := by
      rw [Nat.mul_two, List.range_add, List.map_append, List.map_map]; rfl
    refine ⟨⟨(List.range n.toNat).map pt, (List.range n.toNat).map (fun i => pt (n.toNat + i))⟩, ?_, rfl, rfl, ?_⟩
    · unfold getGenerators
      rw [if_neg (by omega), split_ok (m := n.toNat) (by simp; omega) (by omega), Res.bind_ok, e,
        List.take_left' (by simp), List.drop_left' (by simp)]
    · intro hinj
      rw [← e]
      exact List.nodup_range.map hinj
  · subst h; rfl
  · unfold getGenerators; rw [if_pos h]

/-- **C72 (statement).** `getP` returns the statement `Prove` proves. -/
theorem C72_getP (gens : Gens G) (a b : List F) (u : G) (k : Nat)
    (hGH : gens.G.length = gens.H.length) (hn : 2 ^ k ≤ gens.G.length)
    (ha : a.length = 2 ^ k) (hb : b.length = 2 ^ k) :
    getP gens a b u = .ok (msm (gens.G.take (2 ^ k)) a + msm (gens.H.take (2 ^ k)) b + dot a b • u) := by
  have hpos : 0 < 2 ^ k := by positivity
  unfold getP
  rw [if_neg (by rw [ha, isPow2_two_pow]; simp), if_neg (by simp [hGH]),
    innerProduct_ok (by omega) (by omega), Res.bind_ok, ha, hb,
    slice0_ok hn, Res.bind_ok, slice0_ok (hGH ▸ hn), Res.bind_ok, sop_ok (by simp; omega), Res.bind_ok,
    sop_ok (by simp; omega), Res.bind_ok]

/-- **C72 (the check).** `Verify` accepts exactly the proofs that satisfy the final equation of the paper for
the challenges of the transcript. -/
theorem C72_verify_exact (C : Curve F G) (gens : Gens G) (P u : G) (p : Ipp F G) (t : Transcript)
    (hGH : gens.G.length = gens.H.length) (hLR : p.capLs.length = p.capRs.length)
    (hk : p.capLs.length < 63) (hn : 2 ^ p.capLs.length ≤ gens.G.length)
    (h0 : (0 : F) ∉ (challenges C p.capLs p.capRs t).1) :
    (∃ t', verify C gens P u p t = .ok (true, t')) ↔
      IppEq (gens.G.take (2 ^ p.capLs.length)) (gens.H.take (2 ^ p.capLs.length)) u P p
        (challenges C p.capLs p.capRs t).1 := by
  rw [verify_eq C gens P u p t hGH hLR hk hn h0]
  constructor
  · rintro ⟨t', e⟩
    exact of_decide_eq_true (congrArg Prod.fst (Res.ok.inj e))
  · intro h
    exact ⟨_, by rw [decide_eq_true h]⟩

/-- **C72 (malformed proofs).** `Verify` returns an error, for every statement and transcript, when the proof has
different numbers of left and right cross terms, when the two lists of generators differ in length, and when there
are fewer generators than the proof's `2^k`. -/
theorem C72_verify_refuses (C : Curve F G) (gens : Gens G) (P u : G) (p : Ipp F G) (t : Transcript)
    (h : p.capLs.length ≠ p.capRs.length ∨ gens.G.length ≠ gens.H.length ∨
      (p.capLs.length < 63 ∧ gens.G.length < 2 ^ p.capLs.length)) : verify C gens P u p t = .err := by
  unfold verify
  split
  · rfl
  split
  · rfl
  rename_i h1 h2
  rcases h with h | h | ⟨hk, h⟩
  · exact absurd h h1
  · exact absurd h h2
  · simp only [shl1_eq hk]
    rw [if_pos (by exact_mod_cast h)]

theorem pow2_of_and (n : Nat) (h : n &&& (n - 1) = 0) : n = 0 ∨ ∃ k, n = 2 ^ k := by
  induction n using Nat.strong_induction_on with
  | _ n ih =>
    rcases Nat.eq_zero_or_pos n with rfl | hpos
    · left; rfl
    · right
      rcases Nat.even_or_odd' n with ⟨m, rfl | rfl⟩
      · -- even: halve
        have hm : 0 < m := by omega
        have e : m &&& (m - 1) = 0 := by
          apply Nat.eq_of_testBit_eq
          intro i
          have := congrArg (fun x => Nat.testBit x (i + 1)) h
          simp only [Nat.testBit_and, Nat.zero_testBit] at this ⊢
          simp only [Nat.testBit_succ] at this
          have e1 : 2 * m / 2 = m := by omega
          have e2 : (2 * m - 1) / 2 = m - 1 := by omega
          rw [e1, e2] at this
          exact this
        rcases ih m (by omega) e with h | ⟨k, rfl⟩
        · omega
        · exact ⟨k + 1, by rw [pow_succ]; ring⟩
      · rcases Nat.eq_zero_or_pos m with rfl | hm
        · exact ⟨0, rfl⟩
        · exfalso
          have e : 2 * m + 1 - 1 = 2 * m := by omega
          rw [e] at h
          have h2 : m = 0 := by
            apply Nat.eq_of_testBit_eq
            intro i
            have := congrArg (fun x => Nat.testBit x (i + 1)) h
            simp only [Nat.testBit_and, Nat.zero_testBit] at this ⊢
            simp only [Nat.testBit_succ] at this
            have e1 : (2 * m + 1) / 2 = m := by omega
            have e2 : 2 * m / 2 = m := by omega
            rw [e1, e2, Bool.and_self] at this
            exact this
          omega

theorem isPow2_iff (n : Nat) : isPowerOfTwo n = true ↔ n = 0 ∨ ∃ k, n = 2 ^ k := by
  constructor
  · intro h
    exact pow2_of_and n (by simpa [isPowerOfTwo] using h)
  · rintro (rfl | ⟨k, rfl⟩)
    · rfl
    · exact isPow2_two_pow k

/-- **C72 (input checks).** `Prove` never panics, and it refuses vectors of different lengths, empty vectors,
lengths that are no power of two and lengths beyond the generators. -/
theorem C72_input_checks (C : Curve F G) (gens : Gens G) (a b : List F) (u : G) (t : Transcript)
    (hGH : gens.G.length = gens.H.length) (hlen : gens.G.length < 2 ^ 63) :
    prove C gens a b u t ≠ .panic ∧
    (a.length ≠ b.length ∨ a.length = 0 ∨ (∀ k, a.length ≠ 2 ^ k) ∨ a.length > gens.G.length →
      prove C gens a b u t = .err) := by
  have key : a.length ≠ b.length ∨ a.length = 0 ∨ (∀ k, a.length ≠ 2 ^ k) ∨ a.length > gens.G.length →
      prove C gens a b u t = .err := by
    intro h
    unfold prove
    by_cases hp : isPowerOfTwo a.length = false
    · rw [if_pos hp]
    rw [if_neg hp, if_neg (by simp [hGH])]
    by_cases hab : a.length = b.length
    · by_cases h0 : a.length = 0
      · have : innerProduct a b = .err := by
          unfold innerProduct; rw [if_neg (by simp [hab]), if_pos (by omega)]
        rw [this]; rfl
      · rw [innerProduct_ok hab (by omega), Res.bind_ok, if_pos]
        rcases h with h | h | h | h
        · exact absurd hab h
        · exact absurd h h0
        · exfalso
          rcases (isPow2_iff a.length).1 (by simpa using hp) with h' | ⟨k, h'⟩
          · exact h0 h'
          · exact h k h'
        · exact h
    · have : innerProduct a b = .err := by
        unfold innerProduct; rw [if_pos hab]
      rw [this]; rfl
  refine ⟨?_, key⟩
  by_cases hbad : a.length ≠ b.length ∨ a.length = 0 ∨ (∀ k, a.length ≠ 2 ^ k) ∨ a.length > gens.G.length
  · rw [key hbad]; nofun
  · push Not at hbad
    obtain ⟨h1, h2, ⟨k, h3⟩, h4⟩ := hbad
    have hk : k < 63 := by
      by_contra hk
      have := Nat.pow_le_pow_right (n := 2) (by omega) (Nat.le_of_not_lt hk)
      omega
    obtain ⟨p, t', h, _, _, he, ho⟩ := C72_completeness C gens a b u t k hGH hk (by omega) h3 (by omega)
    by_cases h0 : (0 : F) ∈ (challenges C p.capLs p.capRs t).1
    · by_cases hi : C.invErr = true
      · rw [he hi h0]; nofun
      · rw [silent_eq (by simpa using hi)] at h
        rw [h]; nofun
    · rw [(ho h0).1]; nofun

/-- **C72 (crash).** `Verify` panics on every proof with 63 or more pairs of cross terms: `1 << len(capLs)`
overflows, and neither result is caught by the length check. -/
theorem C72_verify_overflow (C : Curve F G) (gens : Gens G) (P u : G) (p : Ipp F G) (t : Transcript)
    (hGH : gens.G.length = gens.H.length) (hLR : p.capLs.length = p.capRs.length)
    (hk : 63 ≤ p.capLs.length) : verify C gens P u p t = .panic := by
  unfold verify
  rw [if_neg (by simp [hLR]), if_neg (by simp [hGH])]
  by_cases h : p.capLs.length = 63
  · have e : shl1 p.capLs.length = -(2 ^ 63) := by rw [h]; rfl
    simp only [e]
    rw [if_neg (by omega)]
    have : slice0 gens.G (-(2 ^ 63)) = .panic := by
      unfold slice0; rw [if_neg (by omega)]
    rw [this]; rfl
  · have e : shl1 p.capLs.length = ((0 : Nat) : Int) := by
      unfold shl1; rw [if_neg (by omega), if_neg h]; rfl
    simp only [e]
    rw [if_neg (by omega), slice0_ok (by omega), Res.bind_ok, slice0_ok (by omega), Res.bind_ok,
      getxs_eq C hLR, Res.bind_ok]
    have : getsNew C (challenges C p.capLs p.capRs t).1 ((0 : Nat) : Int) = .panic := by
      unfold getsNew; rw [if_pos (by omega)]
    rw [this]; rfl

theorem gets_eq' (C : Curve F G) {xs : List F} (h0 : (0 : F) ∉ xs) {n : Int} (hn : 0 ≤ n) :
    gets C xs n = .ok ((List.range n.toNat).map (sAt xs)) := by
  unfold gets
  rw [if_neg (by omega)]
  exact mapM_ok_of fun i _ => by rw [getsAt_eq C i h0, one_mul]

theorem sAt_ne_zero {xs : List F} (h0 : (0 : F) ∉ xs) (i : Nat) : sAt xs i ≠ 0 := by
  induction xs with
  | nil => simp [sAt]
  | cons x xs ih =>
    have hx : x ≠ 0 := fun e => h0 (by simp [e])
    rw [sAt]
    refine mul_ne_zero ?_ (ih fun e => h0 (by simp [e]))
    split
    · exact hx
    · exact inv_ne_zero hx

/-- **C72 (crash).** The variant used for range proofs has no length check at all: it panics whenever the
number of pairs of cross terms does not fit the number of generators. -/
theorem C72_fromRange_mismatch (C : Curve F G) (g h : List G) (P u : G) (tHat : F) (p : Ipp F G)
    (t : Transcript) (hLR : p.capLs.length = p.capRs.length)
    (h0 : (0 : F) ∉ (challenges C p.capLs p.capRs t).1)
    (hg : (g.length : Int) ≠ shl1 p.capLs.length) :
    verifyFromRange C g h P u tHat p t = .panic := by
  unfold verifyFromRange
  rw [getxs_eq C hLR, Res.bind_ok]
  by_cases hneg : shl1 p.capLs.length < 0
  · have : gets C (challenges C p.capLs p.capRs t).1 (shl1 p.capLs.length) = .panic := by
      unfold gets; rw [if_pos hneg]
    simp only
    rw [this]; rfl
  · simp only
    rw [gets_eq' C h0 (by omega), Res.bind_ok]
    set s := (List.range (shl1 p.capLs.length).toNat).map (sAt (challenges C p.capLs p.capRs t).1) with hs
    have hs0 : (0 : F) ∉ s := by
      intro hm
      obtain ⟨i, _, e⟩ := List.mem_map.1 hm
      exact sAt_ne_zero h0 i e
    have : getLHS C u p g h s = .panic := by
      unfold getLHS
      rw [invertScalars_eq C hs0, Res.bind_ok]
      have : sop g (mulScs p.a s) = .panic := by
        unfold sop
        rw [if_neg]
        rw [length_mulScs, hs, List.length_map, List.length_range]
        omega
      rw [this]; rfl
    rw [this]; rfl

end Verif.Bulletproof
