import Verif.Bulletproof.Bits

/-! C73: range proofs (`RangeProver.Prove`, `RangeVerifier.Verify`). -/

set_option linter.unusedSectionVars false

namespace Verif.Bulletproof

open Verif Verif.Bytes
open Verif.OT (Ev Transcript idx)

variable {F G : Type} [Field F] [DecidableEq F] [AddCommGroup G] [Module F G] [DecidableEq G]

/-! ### specification -/

/-- The challenges `y, z, x, w` of a range proof and the transcript left behind. -/
structure RChal (F : Type) where
  y : F
  z : F
  x : F
  w : F
  rest : Transcript

/-- How a range proof for the commitments `Vs` draws its challenges: the commitments, `A` and `S` are
appended, `y` and `z` read; `T1` and `T2` are appended, `x` and `w` read. -/
def rchal (C : Curve F G) (Vs : List G) (p : RProof F G) (t : Transcript) : RChal F :=
  let t1 := t ++ Vs.map (fun V => Ev.append "addV" (C.unc V)) ++
    [.append "addcapA" (C.unc p.capA), .append "addcapS" (C.unc p.capS)]
  let t2 := t1 ++ [.extract "gety"]
  let t3 := t2 ++ [.extract "getz"] ++ [.append "addcapT1" (C.unc p.capT1)] ++ [.append "addcapT2" (C.unc p.capT2)]
  let t4 := t3 ++ [.extract "getx"]
  ⟨C.chal t1 "gety", C.chal t2 "getz", C.chal t3 "getx", C.chal t4 "getw", t4 ++ [.extract "getw"]⟩

/-! ### algebra of the protocol -/

section core
variable {N : Nat} {aL sL sR yn c : List F} {g h : List G}

/-- `⟨l₀, r₀⟩` for a bit vector: everything but `⟨aL, c⟩` is public -/
theorem dot_const (ha : ∀ a ∈ aL, a * (a - 1) = 0) (hy : yn.length = aL.length) (hcl : c.length = aL.length)
    (z : F) :
    dot (List.zipWith (· - ·) aL (mulScs z (List.replicate aL.length 1)))
        (List.zipWith (· + ·) (List.zipWith (· * ·) yn
          (List.zipWith (· + ·) (List.zipWith (· - ·) aL (List.replicate aL.length 1))
            (mulScs z (List.replicate aL.length 1)))) c) =
      dot aL c + ((z - z * z) * dot (List.replicate aL.length 1) yn - z * dot (List.replicate aL.length 1) c) := by
  induction aL generalizing yn c with
  | nil => simp [dot]
  | cons a aL ih =>
    cases yn with
    | nil => simp at hy
    | cons y yn => cases c with
      | nil => simp at hcl
      | cons e c =>
        have h1 := ih (fun a ha' => ha a (by simp [ha'])) (by simpa using hy) (by simpa using hcl)
        have h2 := ha a (by simp)
        simp only [List.length_cons, List.replicate_succ, mulScs, List.map_cons, List.zipWith_cons_cons,
          dot_cons] at h1 ⊢
        rw [h1]
        linear_combination y * h2

theorem dot_lr {cl cr sl lr : List F} (h1 : cl.length = sl.length) (h2 : cr.length = lr.length) (x : F) :
    dot (List.zipWith (· + ·) cl (mulScs x sl)) (List.zipWith (· + ·) cr (mulScs x lr)) =
      dot cl cr + (dot sl cr + dot lr cl) * x + dot sl lr * (x * x) := by
  rw [dot_add_left (by simpa), dot_add_right (by simpa), dot_add_right (by simpa), dot_mulScs_right,
    dot_mulScs_left, dot_mulScs_left, dot_mulScs_right, dot_comm cl lr]
  ring

theorem msm_hPrime {a y : F} (ha : a ≠ 0) (hy : y ≠ 0) (h : List G) (b : List F) (m : Nat) (hm : h.length ≤ m) :
    msm (List.zipWith (fun p s => s • p) h (mulFrom a⁻¹ y⁻¹ m)) (List.zipWith (· * ·) (mulFrom a y m) b) =
      msm h b := by
  induction h generalizing a b m with
  | nil => simp
  | cons p h ih =>
    obtain ⟨m, rfl⟩ : ∃ k, m = k + 1 := ⟨m - 1, by simp at hm; omega⟩
    cases b with
    | nil => simp
    | cons x b =>
      simp only [mulFrom, List.zipWith_cons_cons, msm_cons]
      rw [← mul_inv, ih (mul_ne_zero ha hy) b m (by simpa using hm), smul_smul]
      congr 2
      field_simp

theorem mulScs_eq_zip (z : F) (l : List F) :
    mulScs z l = List.zipWith (· * ·) l (mulScs z (List.replicate l.length 1)) := by
  induction l with
  | nil => simp [mulScs]
  | cons a l ih =>
    simp only [mulScs] at ih
    simp only [mulScs, List.length_cons, List.replicate_succ, List.map_cons, List.zipWith_cons_cons, ← ih,
      one_mul]

/-- the commitment `A + x·S - z·⟨1,g⟩ + … - mu·h` is `g^l h'^r` -/
theorem msm_P {y : F} (hy : y ≠ 0) (hN : aL.length = N) (hg : g.length = N) (hh : h.length = N)
    (hsL : sL.length = N) (hsR : sR.length = N) (hcl : c.length = N) (z x al rho : F) (h0 : G) :
    (al • h0 + msm g aL + msm h (List.zipWith (· - ·) aL (List.replicate N 1))) +
        x • (rho • h0 + msm g sL + msm h sR) + msm g (mulScs (-z) (List.replicate N 1)) +
        (z • msm (List.zipWith (fun p s => s • p) h (mulFrom 1 y⁻¹ N)) (mulFrom 1 y N) +
          msm (List.zipWith (fun p s => s • p) h (mulFrom 1 y⁻¹ N)) c) - (al + rho * x) • h0 =
      msm g (List.zipWith (· + ·) (List.zipWith (· - ·) aL (mulScs z (List.replicate N 1))) (mulScs x sL)) +
      msm (List.zipWith (fun p s => s • p) h (mulFrom 1 y⁻¹ N))
        (List.zipWith (· + ·)
          (List.zipWith (· + ·) (List.zipWith (· * ·) (mulFrom 1 y N)
            (List.zipWith (· + ·) (List.zipWith (· - ·) aL (List.replicate N 1))
              (mulScs z (List.replicate N 1)))) c)
          (mulScs x (List.zipWith (· * ·) (mulFrom 1 y N) sR))) := by
  have ly : (mulFrom (1 : F) y N).length = N := mulFrom_length _ _ _
  have key : ∀ b : List F, b.length = N →
      msm (List.zipWith (fun p s => s • p) h (mulFrom 1 y⁻¹ N)) (List.zipWith (· * ·) (mulFrom 1 y N) b) =
        msm h b := by
    intro b _
    have := msm_hPrime (one_ne_zero (α := F)) hy h b N hh.le
    rwa [inv_one] at this
  have hz : z • msm (List.zipWith (fun p s => s • p) h (mulFrom 1 y⁻¹ N)) (mulFrom 1 y N) =
      msm h (mulScs z (List.replicate N 1)) := by
    rw [← key (mulScs z (List.replicate N 1)) (by simp), ← msm_mulScs]
    congr 1
    have e := mulScs_eq_zip z (mulFrom (1 : F) y N)
    rwa [ly] at e
  rw [msm_add_right (b := mulScs x sL) (by simp; omega), msm_sub_right (b := mulScs z (List.replicate N 1)) (by simp; omega), msm_mulScs g x,
    msm_add_right (a := List.zipWith (· + ·) _ c) (by simp; omega), msm_add_right (b := c) (by simp; omega),
    msm_mulScs _ x (List.zipWith _ _ sR), key _ (by simp; omega), key _ hsR, hz,
    msm_add_right (by simp; omega), msm_mulScs g (-z), msm_mulScs g z]
  simp only [smul_add, add_smul, neg_smul, smul_smul, mul_comm x rho]
  abel

end core

/-! ### the steps of the code -/

theorem calcyz_eq (C : Curve F G) (Vs : List G) (A S : G) (t : Transcript) :
    calcyz C Vs A S t =
      (C.chal (t ++ Vs.map (fun V => Ev.append "addV" (C.unc V)) ++
          [.append "addcapA" (C.unc A), .append "addcapS" (C.unc S)]) "gety",
        C.chal (t ++ Vs.map (fun V => Ev.append "addV" (C.unc V)) ++
          [.append "addcapA" (C.unc A), .append "addcapS" (C.unc S)] ++ [.extract "gety"]) "getz",
        t ++ Vs.map (fun V => Ev.append "addV" (C.unc V)) ++
          [.append "addcapA" (C.unc A), .append "addcapS" (C.unc S)] ++ [.extract "gety"] ++
          [.extract "getz"]) := by
  have : ∀ t, Vs.foldl (fun t V => C.app t "addV" V) t =
      t ++ Vs.map (fun V => Ev.append "addV" (C.unc V)) := by
    induction Vs with
    | nil => simp
    | cons V Vs ih => intro t; rw [List.foldl_cons, ih]; simp [Curve.app]
  unfold calcyz
  rw [this]
  simp [Curve.app, Curve.ext, List.append_assoc]

theorem deltayz_ok {n : Nat} (hn : 2 ≤ n) (y z : F) :
    deltayz y z (n : Int) = .ok ((z - z * z) * dot (List.replicate n 1) (mulFrom 1 y n) -
      z * z * z * dot (List.replicate n 1) (mulFrom 1 2 n)) := by
  unfold deltayz
  rw [get1n_ok, Res.bind_ok, getkn_ok y hn, Res.bind_ok,
    innerProduct_ok (by simp [mulFrom_length]) (by simp; omega), Res.bind_ok,
    get2n_ok (by omega), Res.bind_ok, innerProduct_ok (by simp [mulFrom_length]) (by simp; omega), Res.bind_ok]

theorem gethPrime_ok (C : Curve F G) {h : List G} {n : Nat} (hh : h.length = n) (hn : 2 ≤ n) {y : F}
    (hy : ¬ (y = 0 ∧ C.invErr = true)) :
    gethPrime C h y = .ok (List.zipWith (fun p s => s • p) h (mulFrom 1 y⁻¹ n)) := by
  have : C.invert y = .ok y⁻¹ := by unfold Curve.invert; rw [if_neg hy]
  unfold gethPrime
  rw [this]
  simp only
  rw [hh, getkn_ok _ hn, Res.bind_ok]

theorem getPhmu_ok {g hP : List G} {n : Nat} (hn : 2 ≤ n) (hg : g.length = n) (hh : hP.length = n)
    (h0 A S : G) (x y z mu : F) :
    getPhmu g hP h0 A S x y z mu (n : Int) =
      .ok (A + x • S + msm g (mulScs (-z) (List.replicate n 1)) +
        (z • msm hP (mulFrom 1 y n) + msm hP (mulScs (z * z) (mulFrom 1 2 n))) - mu • h0) := by
  unfold getPhmu addPair
  rw [getkn_ok y hn, Res.bind_ok, get2n_ok (by omega), Res.bind_ok, pair_ok (by simp [mulFrom_length]),
    Res.bind_ok, sop_ok (by simp [mulFrom_length, hh]), Res.bind_ok, get1n_ok, Res.bind_ok,
    sop_ok (by simp [hg]), Res.bind_ok, msm_add_right (by simp [mulFrom_length]), msm_mulScs hP z]

/-- the inner product argument of a range proof, against the statement of the verifier -/
theorem ippEq_shift {g h : List G} {u P : G} {l r : List F} {p : Ipp F G} {xs : List F} {tHat w : F}
    (heq : IppEq g h (w • u) (commit g h (w • u) l r) p xs) (hP : P = msm g l + msm h r) :
    IppEq g h (w • u) (P + tHat • w • u) p xs ↔ ((tHat - dot l r) * w) • u = 0 := by
  unfold IppEq at heq ⊢
  rw [heq, hP]
  unfold commit
  rw [mul_smul, sub_smul, sub_eq_zero]
  constructor
  · intro h
    have h := add_right_cancel h
    exact (add_left_cancel h).symm
  · intro h; rw [h]

/-- The honest run on a curve whose inversion does not report zero (the general case is `C73_honest`). -/
theorem range_quiet {C : Curve F G} {L : Nat} (hc : ScalarCodec C L) (hi : C.invErr = false) (gens : Gens G) (v gamma : F) (k : Nat)
    (pg : RGens G) (rnd : Rnd F) (t : Transcript)
    (hGH : gens.G.length = gens.H.length) (hk1 : 1 ≤ k) (hk : k < 63) (hn : 2 ^ k ≤ gens.G.length)
    (hL : 2 ^ k ≤ 8 * L) (hv : C.big v ≤ 2 ^ 2 ^ k) :
    ∃ p t', rangeProve C gens v gamma (2 ^ k : Nat) pg rnd t = .ok (p, t') ∧
      p.ipp.capLs.length = k ∧ p.ipp.capRs.length = k ∧
      ((rchal C [gamma • pg.h + v • pg.g] p t).y ≠ 0 →
        (0 : F) ∉ (challenges C p.ipp.capLs p.ipp.capRs (rchal C [gamma • pg.h + v • pg.g] p t).rest).1 →
        rangeVerify C gens p (gamma • pg.h + v • pg.g) pg (2 ^ k : Nat) t =
          .ok (decide ((((leToNat (C.bytes v) % 2 ^ 2 ^ k : Nat) - v) *
            (rchal C [gamma • pg.h + v • pg.g] p t).z ^ 2 *
            (rchal C [gamma • pg.h + v • pg.g] p t).w) • pg.u = 0), t')) := by
  set N := 2 ^ k with hN
  have hN2 : 2 ≤ N := by
    have := Nat.pow_le_pow_right (n := 2) (by omega) hk1
    omega
  set g := gens.G.take N with hgd
  set h := gens.H.take N with hhd
  have hg : g.length = N := by simp [hgd]; omega
  have hh : h.length = N := by simp [hhd]; omega
  set aL : List F := bits (leToNat (C.bytes v)) N with haL
  have laL : aL.length = N := by simp [haL]
  set sL := (List.range N).map rnd.sL with hsL
  have lsL : sL.length = N := by simp [hsL]
  set sR := (List.range N).map rnd.sR with hsR
  have lsR : sR.length = N := by simp [hsR]
  have ly : ∀ y : F, (mulFrom 1 y N).length = N := fun y => mulFrom_length _ _ _
  -- run the prover
  unfold rangeProve
  rw [if_neg (by exact_mod_cast not_lt.2 hn), slice0_ok hn, Res.bind_ok, slice0_ok (hGH ▸ hn), Res.bind_ok,
    Int.toNat_natCast, if_neg (by omega), getaL_eq hc v hL, Res.bind_ok, get1n_ok, Res.bind_ok]
  simp only [← hgd, ← hhd, ← haL, ← hsL, ← hsR]
  unfold subPair
  rw [pair_ok (by simp [laL]), Res.bind_ok, sop_ok (by omega), Res.bind_ok, sop_ok (by simp; omega), Res.bind_ok,
    sop_ok (by omega), Res.bind_ok, sop_ok (by omega), Res.bind_ok]
  simp only [calcyz_eq, getcapV]
  set V := gamma • pg.h + v • pg.g with hV
  set capA := rnd.alpha • pg.h + msm g aL + msm h (List.zipWith (· - ·) aL (List.replicate N 1)) with hA
  set capS := rnd.rho • pg.h + msm g sL + msm h sR with hS
  simp only [List.map_cons, List.map_nil]
  set ta := t ++ [Ev.append "addV" (C.unc V)] ++
    [Ev.append "addcapA" (C.unc capA), Ev.append "addcapS" (C.unc capS)] with hta
  set y := C.chal ta "gety" with hy
  set z := C.chal (ta ++ [Ev.extract "gety"]) "getz" with hz
  rw [pair_ok (by simp [laL]), Res.bind_ok, get2n_ok (by omega), Res.bind_ok]
  unfold addPair mulPair
  rw [pair_ok (by simp [laL]), Res.bind_ok, getkn_ok y hN2, Res.bind_ok, pair_ok (by simp [laL, ly]), Res.bind_ok,
    pair_ok (by simp [laL, ly]), Res.bind_ok, pair_ok (by simp [lsR, ly]), Res.bind_ok]
  set cl := List.zipWith (· - ·) aL (mulScs z (List.replicate N 1)) with hcl
  set cr := List.zipWith (· + ·) (List.zipWith (· * ·) (mulFrom 1 y N)
    (List.zipWith (· + ·) (List.zipWith (· - ·) aL (List.replicate N 1)) (mulScs z (List.replicate N 1))))
    (mulScs (z * z) (mulFrom 1 2 N)) with hcr
  set lr := List.zipWith (· * ·) (mulFrom 1 y N) sR with hlr
  have lcl : cl.length = N := by simp [hcl, laL]
  have lcr : cr.length = N := by simp [hcr, laL, ly]
  have llr : lr.length = N := by simp [hlr, lsR, ly]
  rw [innerProduct_ok (by omega) (by omega), Res.bind_ok, innerProduct_ok (by omega) (by omega), Res.bind_ok,
    innerProduct_ok (by omega) (by omega), Res.bind_ok]
  set t1 := dot sL cr + dot lr cl with ht1
  set t2 := dot sL lr with ht2
  set capT1 := t1 • pg.g + rnd.tau1 • pg.h with hT1
  set capT2 := t2 • pg.g + rnd.tau2 • pg.h with hT2
  simp only [calcx, Curve.ext, Curve.app, List.append_assoc, List.cons_append, List.nil_append]
  set tb := ta ++ (Ev.extract "gety" :: Ev.extract "getz" :: Ev.append "addcapT1" (C.unc capT1) ::
    [Ev.append "addcapT2" (C.unc capT2)]) with htb
  have htb2 : ta ++ (Ev.extract "gety" :: Ev.extract "getz" :: Ev.append "addcapT1" (C.unc capT1) ::
      Ev.append "addcapT2" (C.unc capT2) :: [Ev.extract "getx"]) = tb ++ [Ev.extract "getx"] := by
    simp [htb]
  set x := C.chal tb "getx" with hx
  rw [pair_ok (by simp [lcl, lsL]), Res.bind_ok, pair_ok (by simp [lcr, llr]), Res.bind_ok, deltayz_ok hN2,
    Res.bind_ok]
  set d := (z - z * z) * dot (List.replicate N 1) (mulFrom 1 y N) -
    z * z * z * dot (List.replicate N 1) (mulFrom 1 2 N) with hd
  have hybad : ¬ (y = 0 ∧ C.invErr = true) := by simp [hi]
  rw [gethPrime_ok C hh hN2 hybad, Res.bind_ok]
  set hP := List.zipWith (fun p s => s • p) h (mulFrom 1 y⁻¹ N) with hhP
  have lhP : hP.length = N := by simp [hhP, ly, hh]
  rw [getPhmu_ok hN2 hg lhP, Res.bind_ok]
  set l := List.zipWith (· + ·) cl (mulScs x sL) with hl
  set r := List.zipWith (· + ·) cr (mulScs x lr) with hr
  have ll : l.length = N := by simp [hl, lcl, lsL]
  have lrr : r.length = N := by simp [hr, lcr, llr]
  have htc : ta ++ Ev.extract "gety" :: Ev.extract "getz" :: Ev.append "addcapT1" (C.unc capT1) ::
      Ev.append "addcapT2" (C.unc capT2) :: Ev.extract "getx" :: [Ev.extract "getw"] =
      tb ++ [Ev.extract "getx", Ev.extract "getw"] := by simp [htb]
  rw [htb2, htc]
  set w := C.chal (tb ++ [Ev.extract "getx"]) "getw" with hw
  set td := tb ++ [Ev.extract "getx", Ev.extract "getw"] with htd
  unfold rangeToIPP
  obtain ⟨a0, b0, Ls, Rs, h1, h2, h3, h5⟩ := proveRec_quiet hi (w • pg.u) (fuel := l.length)
    (by rw [ll, hN]; exact Nat.lt_two_pow_self.le) l r g hP [] [] td ll lrr hg lhP
  rw [h1, Res.bind_ok]
  simp only [List.nil_append]
  refine ⟨_, _, rfl, h2, h3, ?_⟩
  -- the challenges of the verifier are those of the prover
  have hch : ∀ p : RProof F G, p.capA = capA → p.capS = capS → p.capT1 = capT1 → p.capT2 = capT2 →
      rchal C [V] p t = ⟨y, z, x, w, td⟩ := by
    intro p e1 e2 e3 e4
    unfold rchal
    rw [e1, e2, e3, e4]
    simp only [List.map_cons, List.map_nil, ← hta]
    rw [← hy, ← hz]
    have e5 : ta ++ [Ev.extract "gety"] ++ [Ev.extract "getz"] ++ [Ev.append "addcapT1" (C.unc capT1)] ++
        [Ev.append "addcapT2" (C.unc capT2)] = tb := by simp [htb]
    rw [e5, ← hx, ← hw]
    simp [htd]
  rw [hch _ rfl rfl rfl rfl]
  simp only
  intro hy0 hxs
  -- run the verifier
  unfold rangeVerify
  rw [if_neg (by exact_mod_cast not_lt.2 hn), slice0_ok hn, Res.bind_ok, slice0_ok (hGH ▸ hn), Res.bind_ok]
  simp only [← hgd, ← hhd, calcyz_eq, List.map_cons, List.map_nil, ← hta, ← hy, ← hz]
  simp only [calcx, Curve.ext, Curve.app, List.append_assoc, List.cons_append, List.nil_append]
  rw [← htb, htb2, htc, ← hx, ← hw, deltayz_ok hN2, Res.bind_ok, ← hd]
  have hcheck : checktHat (⟨capA, capS, capT1, capT2, rnd.tau2 * (x * x) + rnd.tau1 * x + z * z * gamma,
      rnd.alpha + rnd.rho * x, v * (z * z) + d + t1 * x + t2 * (x * x), ⟨a0, b0, Ls, Rs⟩⟩ : RProof F G) V
      pg.g pg.h d x z = true := by
    unfold checktHat
    rw [decide_eq_true_iff]
    simp only [hV, hT1, hT2, smul_add, add_smul, smul_smul]
    simp only [mul_comm (z * z) v, mul_comm x t1, mul_comm x rnd.tau1, mul_comm (x * x)]
    abel
  rw [if_neg (by rw [hcheck]; simp), gethPrime_ok C hh hN2 hybad, Res.bind_ok, ← hhP, getPhmu_ok hN2 hg lhP,
    Res.bind_ok]
  rw [verifyFromRange_eq C g hP _ _ _ _ _ (h2.trans h3.symm) (by rw [h2]; exact hk) (by simp only; rw [h2, hg])
    (by simp only; rw [h2, lhP]) hxs]
  congr 2
  have hPeq := msm_P (aL := aL) (sL := sL) (sR := sR) (c := mulScs (z * z) (mulFrom 1 2 N)) (g := g) (h := h)
    hy0 laL hg hh lsL lsR (by simp [ly]) z x rnd.alpha rnd.rho pg.h
  rw [← hA, ← hS, ← hhP, ← hcl, ← hcr, ← hlr, ← hl, ← hr] at hPeq
  rw [decide_eq_decide, ippEq_shift (l := l) (r := r) (h5 hxs) hPeq, hl, hr, dot_lr (by omega) (by omega)]
  have hdc := dot_const (aL := aL) (yn := mulFrom 1 y N) (c := mulScs (z * z) (mulFrom 1 2 N))
    (bits_idem _ _) (by rw [ly, laL]) (by simp [ly, laL]) z
  rw [laL, ← hcl, ← hcr] at hdc
  rw [hdc, dot_mulScs_right, dot_mulScs_right, haL, dot_bits]
  have e : ∀ B : F, ((v * (z * z) + d + t1 * x + t2 * (x * x) -
      (z * z * B + ((z - z * z) * dot (List.replicate N 1) (mulFrom 1 y N) -
        z * (z * z * dot (List.replicate N 1) (mulFrom 1 2 N))) + (dot sL cr + dot lr cl) * x +
        dot sL lr * (x * x))) * w) = - ((B - v) * z ^ 2 * w) := by
    intro B
    rw [hd, ← ht1, ← ht2]; ring
  rw [e, neg_smul, neg_eq_zero]

end Verif.Bulletproof
