import Verif.Bulletproof.RangeProps

/-! C74: aggregated range proofs (`RangeProver.BatchProve`, `RangeVerifier.VerifyBatched`). -/

set_option linter.unusedSectionVars false

namespace Verif.Bulletproof

open Verif Verif.Bytes
open Verif.OT (Ev Transcript idx)

section general
variable {F G : Type} [Field F] [DecidableEq F] [AddCommGroup G] [Module F G] [DecidableEq G]

/-! ### specification -/

/-- the weights `z², z³, …, z^(m+1)` of the `m` values of a batch -/
def weights (z : F) (m : Nat) : List F := (List.range m).map fun j => z ^ (j + 2)

/-- the Pedersen commitments `g^v h^gamma` -/
def commits (v gamma : List F) (pg : RGens G) : List G :=
  List.zipWith (fun v gm => gm • pg.h + v • pg.g) v gamma

/-! ### the vectors of the code -/

theorem weights_eq (z : F) (m : Nat) : mulScs (z * z) (mulFrom 1 z m) = weights z m := by
  unfold weights mulScs
  rw [mulFrom_one, List.map_map]
  apply List.map_congr_left
  intro i _
  simp only [Function.comp, pow_add, pow_two]

@[simp] theorem length_weights (z : F) (m : Nat) : (weights z m).length = m := by simp [weights]

theorem mulFrom_mul (a x k : F) (m : Nat) : mulFrom (a * x) k m = mulScs a (mulFrom x k m) := by
  induction m generalizing x with
  | zero => rfl
  | succ m ih =>
    simp only [mulFrom, mulScs, List.map_cons]
    rw [mul_assoc, ih, mul_comm x a]
    rfl

theorem mulFrom_weights (z : F) (m : Nat) : mulFrom (z * z) z m = weights z m := by
  rw [← weights_eq, ← mulFrom_mul, mul_one]

theorem sumTermr_length (two : List F) (zE z : F) (m : Nat) :
    (sumTermr two zE z m).length = two.length * m := by
  induction m generalizing zE with
  | zero => rfl
  | succ m ih => simp [sumTermr, ih]; ring

/-- the `2^n` vector of every block is weighted with the next power of `z` -/
theorem dot_sumTermr {two : List F} {z : F} (ls : List (List F)) (hl : ∀ l ∈ ls, l.length = two.length) (zE : F) :
    dot ls.flatten (sumTermr two zE z ls.length) = dot (ls.map fun l => dot l two) (mulFrom (zE * z) z ls.length) := by
  induction ls generalizing zE with
  | nil => simp
  | cons l ls ih =>
    simp only [List.flatten_cons, List.length_cons, sumTermr, mulFrom, List.map_cons, dot_cons]
    rw [dot_append (by simp [hl l (by simp)]), ih (fun l h => hl l (by simp [h])), dot_mulScs_right]
    ring

theorem getaLBatched_ok {C : Curve F G} {L n : Nat} (hc : ScalarCodec C L) (hn : n ≤ 8 * L) (v : List F) :
    getaLBatched C n v = .ok (v.map fun vi => bits (leToNat (C.bytes vi)) n).flatten := by
  induction v with
  | nil => rfl
  | cons a v ih =>
    unfold getaLBatched
    rw [getaL_eq hc a hn, Res.bind_ok, ih, Res.bind_ok]
    simp

theorem capVBatched_ok (pg : RGens G) {v gamma : List F} (h : v.length ≤ gamma.length) :
    capVBatched pg.g pg.h v gamma = .ok (commits v gamma pg) := by
  induction v generalizing gamma with
  | nil => simp [capVBatched, commits]
  | cons a v ih => cases gamma with
    | nil => simp at h
    | cons b gamma =>
      unfold capVBatched
      rw [ih (by simpa using h), Res.bind_ok]
      simp [commits, getcapV]

theorem capVBatched_panic (g h : G) {v gamma : List F} (hl : gamma.length < v.length) :
    capVBatched g h v gamma = .panic := by
  induction v generalizing gamma with
  | nil => simp at hl
  | cons a v ih => cases gamma with
    | nil => rfl
    | cons b gamma =>
      unfold capVBatched
      rw [ih (by simpa using hl)]; rfl

theorem deltaSum_eq (c z : F) (m : Nat) (zE acc : F) :
    deltaSum c z m zE acc = acc + c * (mulFrom (zE * z) z m).sum := by
  induction m generalizing zE acc with
  | zero => simp [deltaSum, mulFrom]
  | succ m ih => simp only [deltaSum, mulFrom, List.sum_cons]; rw [ih]; ring

theorem sum_mulScs (a : F) (l : List F) : (mulScs a l).sum = a * l.sum := by
  induction l with
  | nil => simp [mulScs]
  | cons b l ih =>
    simp only [mulScs] at ih
    simp only [mulScs, List.map_cons, List.sum_cons]; rw [ih]; ring

theorem deltayzBatched_ok {n m : Nat} (hn : 1 ≤ n) (hnm : 2 ≤ n * m) (y z : F) :
    deltayzBatched y z (n : Int) m = .ok ((z - z * z) * dot (List.replicate (n * m) 1) (mulFrom 1 y (n * m)) -
      z * (dot (List.replicate n 1) (mulFrom 1 2 n) * (weights z m).sum)) := by
  unfold deltayzBatched
  have e : (n : Int) * (m : Int) = ((n * m : Nat) : Int) := by push_cast; rfl
  rw [e, get1n_ok, Res.bind_ok, getkn_ok y hnm, Res.bind_ok,
    innerProduct_ok (by simp [mulFrom_length]) (by rw [List.length_replicate]; omega), Res.bind_ok,
    get1n_ok, Res.bind_ok, get2n_ok hn, Res.bind_ok,
    innerProduct_ok (by simp [mulFrom_length]) (by simp; omega), Res.bind_ok, deltaSum_eq]
  have : mulFrom (z * z * z) z m = mulScs z (weights z m) := by
    rw [← mulFrom_weights, ← mulFrom_mul]; congr 1; ring
  rw [this, sum_mulScs]
  congr 1
  ring

theorem sum_dot_const (two : List F) (m : Nat) (l : List F) (hl : l.length = m) :
    dot (List.replicate m (dot (List.replicate two.length 1) two)) l =
      dot (List.replicate two.length 1) two * l.sum := by
  subst hl
  induction l with
  | nil => simp
  | cons a l ih => simp [List.replicate_succ, ih, mul_add]

/-- `⟨1, c⟩` for the batch vector `c` -/
theorem ones_sumTermr (two : List F) (z : F) (m : Nat) :
    dot (List.replicate (two.length * m) 1) (sumTermr two z z m) =
      dot (List.replicate two.length 1) two * (weights z m).sum := by
  have e := dot_sumTermr (two := two) (z := z) (List.replicate m (List.replicate two.length 1))
    (by intro l hl; rw [List.eq_of_mem_replicate hl]; simp) z
  rw [List.length_replicate, List.map_replicate, mulFrom_weights] at e
  rw [← sum_dot_const two m (weights z m) (by simp), ← e, List.flatten_replicate_replicate,
    Nat.mul_comm]

theorem phmuSum_ok {two : List F} {n : Nat} (h2 : two.length = n) (z : F) (m : Nat) (hs : List G)
    (hl : hs.length = n * m) (zE : F) (acc : G) :
    phmuSum two n z m hs zE acc = .ok (acc + msm hs (sumTermr two zE z m)) := by
  induction m generalizing hs zE acc with
  | zero => simp [phmuSum, sumTermr]
  | succ m ih =>
    have hle : n ≤ hs.length := by rw [hl]; exact Nat.le_mul_of_pos_right n (by omega)
    have e : hs = hs.take n ++ hs.drop n := (List.take_append_drop n hs).symm
    unfold phmuSum
    rw [sop_ok (by simp [h2]; omega), Res.bind_ok,
      ih (hs.drop n) (by rw [List.length_drop, hl, Nat.mul_succ]; omega)]
    conv_rhs => rw [e]
    rw [sumTermr, msm_append (by simp [h2]; omega), add_assoc]

theorem getPhmuBatched_ok {g hP : List G} {n m : Nat} (hn : 1 ≤ n) (hnm : 2 ≤ n * m) (hg : g.length = n * m)
    (hh : hP.length = n * m) (h0 A S : G) (x y z mu : F) :
    getPhmuBatched g hP h0 A S x y z mu (n : Int) m =
      .ok (A + x • S + msm g (mulScs (-z) (List.replicate (n * m) 1)) +
        (z • msm hP (mulFrom 1 y (n * m)) + msm hP (sumTermr (mulFrom 1 2 n) z z m)) - mu • h0) := by
  unfold getPhmuBatched
  have e : (n : Int) * (m : Int) = ((n * m : Nat) : Int) := by push_cast; rfl
  rw [get2n_ok hn, Res.bind_ok, Int.toNat_natCast, phmuSum_ok (mulFrom_length _ _ _) z m hP hh, Res.bind_ok, e,
    getkn_ok y hnm, Res.bind_ok, sop_ok (by simp [mulFrom_length, hh]), Res.bind_ok, get1n_ok, Res.bind_ok,
    sop_ok (by simp [hg]), Res.bind_ok, msm_mulScs hP z, zero_add,
    add_comm (msm hP (sumTermr (mulFrom 1 2 n) z z m))]

theorem dotAcc_ok {zs v : List F} (h : v.length ≤ zs.length) (acc : F) :
    dotAcc zs v acc = .ok (acc + dot zs v) := by
  induction v generalizing zs acc with
  | nil => cases zs <;> simp [dotAcc, dot]
  | cons a v ih => cases zs with
    | nil => simp at h
    | cons b zs =>
      unfold dotAcc
      rw [ih (by simpa using h), dot_cons, add_assoc]

theorem gammaSum_ok (z : F) (m : Nat) {gamma : List F} (h : m ≤ gamma.length) (zE acc : F) :
    gammaSum z m gamma zE acc = .ok (acc + dot (mulFrom (zE * z) z m) gamma) := by
  induction m generalizing gamma zE acc with
  | zero => simp [gammaSum, mulFrom]
  | succ m ih => cases gamma with
    | nil => simp at h
    | cons b gamma =>
      unfold gammaSum
      rw [ih (by simpa using h), mulFrom, dot_cons, add_assoc]

/-- `Σ zⱼ·Vⱼ` for Pedersen commitments -/
theorem msm_commits (pg : RGens G) (v gamma ws : List F) (h1 : v.length = ws.length) (h2 : v.length ≤ gamma.length) :
    msm (commits v gamma pg) ws = dot ws v • pg.g + dot ws gamma • pg.h := by
  induction v generalizing gamma ws with
  | nil =>
    have : ws = [] := by simpa using h1.symm
    subst this
    simp [commits]
  | cons a v ih => cases gamma with
    | nil => simp at h2
    | cons b gamma => cases ws with
      | nil => simp at h1
      | cons w ws =>
        have := ih gamma ws (by simpa using h1) (by simpa using h2)
        unfold commits at this ⊢
        rw [List.zipWith_cons_cons, msm_cons, this, dot_cons, dot_cons]
        simp only [smul_add, add_smul, smul_smul]
        abel

theorem length_commits (pg : RGens G) {v gamma : List F} (h2 : v.length ≤ gamma.length) :
    (commits v gamma pg).length = v.length := by simp [commits]; omega

theorem checktHatBatched_ok (p : RProof F G) {Vs : List G} {m : Nat} (hm : 2 ≤ m) (hV : Vs.length = m) (g h : G)
    (d x z : F) :
    checktHatBatched p Vs g h d x z m = .ok (decide (p.tHat • g + p.taux • h =
      msm Vs (weights z m) + d • g + x • p.capT1 + (x * x) • p.capT2)) := by
  unfold checktHatBatched
  rw [getkn_ok z hm, Res.bind_ok, weights_eq, sop_ok (by simp [hV]), Res.bind_ok]

theorem checkRange_all (C : Curve F G) {n : Nat} {v : List F} (h : ∀ x ∈ v, C.big x ≤ 2 ^ n) :
    ∃ us, v.mapM (fun vi => checkRange C vi (n : Int)) = .ok us := by
  induction v with
  | nil => exact ⟨[], rfl⟩
  | cons a v ih =>
    obtain ⟨us, hu⟩ := ih fun x hx => h x (by simp [hx])
    refine ⟨() :: us, ?_⟩
    have : checkRange C a (n : Int) = .ok () := by
      unfold checkRange
      have := h a (by simp)
      rw [if_neg (by omega), Int.toNat_natCast, if_neg (by omega)]
    rw [List.mapM_cons, this, Res.bind_ok, hu, Res.bind_ok]; rfl

theorem flatten_length {α : Type} {ls : List (List α)} {n : Nat} (h : ∀ l ∈ ls, l.length = n) :
    ls.flatten.length = n * ls.length := by
  induction ls with
  | nil => rfl
  | cons l ls ih =>
    rw [List.flatten_cons, List.length_append, h l (by simp), ih fun l hl => h l (by simp [hl]),
      List.length_cons, Nat.mul_succ, Nat.add_comm]

/-- The honest run on a curve whose inversion does not report zero (the general case is `C74_honest`). -/
theorem batch_quiet {C : Curve F G} {L : Nat} (hc : ScalarCodec C L) (hi : C.invErr = false) (gens : Gens G) (v gamma : List F) (n k : Nat)
    (pg : RGens G) (rnd : Rnd F) (t : Transcript)
    (hGH : gens.G.length = gens.H.length) (hn1 : 1 ≤ n) (hm : 2 ≤ v.length) (hnk : n * v.length = 2 ^ k)
    (hk : k < 63) (hle : 2 ^ k ≤ gens.G.length) (hL : n ≤ 8 * L) (hgam : v.length ≤ gamma.length)
    (hv : ∀ x ∈ v, C.big x ≤ 2 ^ n) :
    ∃ p t', batchProve C gens v gamma (n : Nat) pg rnd t = .ok (p, t') ∧
      p.ipp.capLs.length = k ∧ p.ipp.capRs.length = k ∧
      ((rchal C (commits v gamma pg) p t).y ≠ 0 →
        (0 : F) ∉ (challenges C p.ipp.capLs p.ipp.capRs (rchal C (commits v gamma pg) p t).rest).1 →
        verifyBatched C gens p (commits v gamma pg) pg (n : Nat) t =
          .ok (decide ((dot (v.map fun x => ((leToNat (C.bytes x) % 2 ^ n : Nat) : F) - x)
            (weights (rchal C (commits v gamma pg) p t).z v.length) *
            (rchal C (commits v gamma pg) p t).w) • pg.u = 0), t')) := by
  set m := v.length with hmd
  set N := n * m with hN
  have hN2 : 2 ≤ N := le_trans hm (Nat.le_mul_of_pos_left m hn1)
  have hn : N ≤ gens.G.length := hnk ▸ hle
  have eNm : ((n : Nat) : Int) * (m : Int) = ((N : Nat) : Int) := by rw [hN]; push_cast; rfl
  set g := gens.G.take N with hgd
  set h := gens.H.take N with hhd
  have hg : g.length = N := by simp [hgd]; omega
  have hh : h.length = N := by simp [hhd]; omega
  set aL : List F := (v.map fun vi => bits (leToNat (C.bytes vi)) n).flatten with haL
  have laL : aL.length = N := by
    rw [haL, flatten_length (n := n) (by
      intro l hl
      obtain ⟨x, _, rfl⟩ := List.mem_map.1 hl
      simp), List.length_map]
  set sL := (List.range N).map rnd.sL with hsL
  have lsL : sL.length = N := by simp [hsL]
  set sR := (List.range N).map rnd.sR with hsR
  have lsR : sR.length = N := by simp [hsR]
  have ly : ∀ y : F, (mulFrom 1 y N).length = N := fun y => mulFrom_length _ _ _
  have lst : ∀ z : F, (sumTermr (mulFrom 1 2 n) z z m).length = N := by
    intro z; rw [sumTermr_length, mulFrom_length]
  obtain ⟨us, hus⟩ := checkRange_all C hv
  -- run the prover
  unfold batchProve
  simp only [← hmd, eNm]
  rw [if_neg (by exact_mod_cast not_lt.2 hn), slice0_ok hn, Res.bind_ok, slice0_ok (hGH ▸ hn), Res.bind_ok,
    hus, Res.bind_ok, Int.toNat_natCast, Int.toNat_natCast, getaLBatched_ok hc hL, Res.bind_ok, get1n_ok, Res.bind_ok]
  simp only [← hgd, ← hhd, ← haL, ← hsL, ← hsR]
  unfold subPair
  rw [pair_ok (by simp [laL]), Res.bind_ok, sop_ok (by omega), Res.bind_ok, sop_ok (by simp; omega), Res.bind_ok,
    sop_ok (by omega), Res.bind_ok, sop_ok (by omega), Res.bind_ok, capVBatched_ok pg hgam, Res.bind_ok]
  simp only [calcyz_eq]
  set V := commits v gamma pg with hV
  have lV : V.length = m := length_commits pg hgam
  set capA := rnd.alpha • pg.h + msm g aL + msm h (List.zipWith (· - ·) aL (List.replicate N 1)) with hA
  set capS := rnd.rho • pg.h + msm g sL + msm h sR with hS
  set ta := t ++ V.map (fun V => Ev.append "addV" (C.unc V)) ++
    [Ev.append "addcapA" (C.unc capA), Ev.append "addcapS" (C.unc capS)] with hta
  set y := C.chal ta "gety" with hy
  set z := C.chal (ta ++ [Ev.extract "gety"]) "getz" with hz
  rw [pair_ok (by simp [laL]), Res.bind_ok, get2n_ok hn1, Res.bind_ok]
  unfold addPair mulPair
  rw [pair_ok (by simp [laL]), Res.bind_ok, getkn_ok y hN2, Res.bind_ok, pair_ok (by simp [laL, ly]), Res.bind_ok,
    pair_ok (by simp [laL, ly, lst]), Res.bind_ok, pair_ok (by simp [lsR, ly]), Res.bind_ok]
  set cl := List.zipWith (· - ·) aL (mulScs z (List.replicate N 1)) with hcl
  set cr := List.zipWith (· + ·) (List.zipWith (· * ·) (mulFrom 1 y N)
    (List.zipWith (· + ·) (List.zipWith (· - ·) aL (List.replicate N 1)) (mulScs z (List.replicate N 1))))
    (sumTermr (mulFrom 1 2 n) z z m) with hcr
  set lr := List.zipWith (· * ·) (mulFrom 1 y N) sR with hlr
  have lcl : cl.length = N := by simp [hcl, laL]
  have lcr : cr.length = N := by simp [hcr, laL, ly, lst]
  have llr : lr.length = N := by simp [hlr, lsR, ly]
  rw [innerProduct_ok (by omega) (by omega), Res.bind_ok, innerProduct_ok (by omega) (by omega), Res.bind_ok,
    innerProduct_ok (by omega) (by omega), Res.bind_ok]
  set t1 := dot sL cr + dot lr cl with ht1
  set t2 := dot sL lr with ht2
  set capT1 := t1 • pg.g + rnd.tau1 • pg.h with hT1
  set capT2 := t2 • pg.g + rnd.tau2 • pg.h with hT2
  simp only [calcx, Curve.ext, Curve.app, List.append_assoc, List.cons_append, List.nil_append]
  set tb := ta ++ (Ev.extract "gety" :: Ev.extract "getz" :: Ev.append "addcapT1" (C.unc capT1) ::
    [Ev.append "addcapT2" (C.unc capT2)]) with htb
  have htb2 : ta ++ (Ev.extract "gety" :: Ev.extract "getz" :: Ev.append "addcapT1" (C.unc capT1) ::
      Ev.append "addcapT2" (C.unc capT2) :: [Ev.extract "getx"]) = tb ++ [Ev.extract "getx"] := by
    simp [htb]
  set x := C.chal tb "getx" with hx
  rw [pair_ok (by simp [lcl, lsL]), Res.bind_ok, pair_ok (by simp [lcr, llr]), Res.bind_ok, getkn_ok z hm, Res.bind_ok,
    weights_eq, dotAcc_ok (by simp [← hmd]), Res.bind_ok, deltayzBatched_ok hn1 hN2, Res.bind_ok,
    gammaSum_ok z m hgam, Res.bind_ok, mulFrom_weights, zero_add, zero_add]
  set d := (z - z * z) * dot (List.replicate N 1) (mulFrom 1 y N) -
    z * (dot (List.replicate n 1) (mulFrom 1 2 n) * (weights z m).sum) with hd
  have hybad : ¬ (y = 0 ∧ C.invErr = true) := by simp [hi]
  rw [gethPrime_ok C hh hN2 hybad, Res.bind_ok]
  set hP := List.zipWith (fun p s => s • p) h (mulFrom 1 y⁻¹ N) with hhP
  have lhP : hP.length = N := by simp [hhP, ly, hh]
  rw [getPhmuBatched_ok hn1 hN2 hg lhP, Res.bind_ok]
  set l := List.zipWith (· + ·) cl (mulScs x sL) with hl
  set r := List.zipWith (· + ·) cr (mulScs x lr) with hr
  have ll : l.length = N := by simp [hl, lcl, lsL]
  have lrr : r.length = N := by simp [hr, lcr, llr]
  have htc : ta ++ Ev.extract "gety" :: Ev.extract "getz" :: Ev.append "addcapT1" (C.unc capT1) ::
      Ev.append "addcapT2" (C.unc capT2) :: Ev.extract "getx" :: [Ev.extract "getw"] =
      tb ++ [Ev.extract "getx", Ev.extract "getw"] := by simp [htb]
  rw [htb2, htc]
  set w := C.chal (tb ++ [Ev.extract "getx"]) "getw" with hw
  set td := tb ++ [Ev.extract "getx", Ev.extract "getw"] with htd
  unfold rangeToIPP
  obtain ⟨a0, b0, Ls, Rs, h1, h2, h3, h5⟩ := proveRec_quiet hi (w • pg.u) (fuel := l.length)
    (by rw [ll, hnk]; exact Nat.lt_two_pow_self.le) l r g hP [] [] td (ll.trans hnk) (lrr.trans hnk) (hg.trans hnk) (lhP.trans hnk)
  rw [h1, Res.bind_ok]
  simp only [List.nil_append]
  refine ⟨_, _, rfl, h2, h3, ?_⟩
  -- the challenges of the verifier are those of the prover
  have hch : ∀ p : RProof F G, p.capA = capA → p.capS = capS → p.capT1 = capT1 → p.capT2 = capT2 →
      rchal C V p t = ⟨y, z, x, w, td⟩ := by
    intro p e1 e2 e3 e4
    unfold rchal
    rw [e1, e2, e3, e4]
    simp only [← hta]
    rw [← hy, ← hz]
    have e5 : ta ++ [Ev.extract "gety"] ++ [Ev.extract "getz"] ++ [Ev.append "addcapT1" (C.unc capT1)] ++
        [Ev.append "addcapT2" (C.unc capT2)] = tb := by simp [htb]
    rw [e5, ← hx, ← hw]
    simp [htd]
  rw [hch _ rfl rfl rfl rfl]
  simp only
  intro hy0 hxs
  -- run the verifier
  unfold verifyBatched
  simp only [lV, eNm]
  rw [if_neg (by exact_mod_cast not_lt.2 hn), slice0_ok hn, Res.bind_ok, slice0_ok (hGH ▸ hn), Res.bind_ok]
  simp only [← hgd, ← hhd, calcyz_eq, ← hta, ← hy, ← hz]
  simp only [calcx, Curve.ext, Curve.app, List.append_assoc, List.cons_append, List.nil_append]
  rw [← htb, htb2, htc, ← hx, ← hw, deltayzBatched_ok hn1 hN2, Res.bind_ok, ← hd, checktHatBatched_ok _ hm lV,
    Res.bind_ok]
  have hcheck : (dot (weights z m) v + d + t1 * x + t2 * (x * x)) • pg.g +
      (rnd.tau2 * (x * x) + rnd.tau1 * x + dot (weights z m) gamma) • pg.h =
      msm V (weights z m) + d • pg.g + x • capT1 + (x * x) • capT2 := by
    rw [hV, msm_commits pg v gamma _ (by simp [← hmd]) hgam]
    simp only [hT1, hT2, smul_add, add_smul, smul_smul]
    simp only [mul_comm x t1, mul_comm x rnd.tau1, mul_comm (x * x)]
    abel
  rw [if_neg (by simp only [hcheck]; simp), gethPrime_ok C hh hN2 hybad, Res.bind_ok, ← hhP,
    getPhmuBatched_ok hn1 hN2 hg lhP, Res.bind_ok]
  rw [verifyFromRange_eq C g hP _ _ _ _ _ (h2.trans h3.symm) (by rw [h2]; exact hk) (by simp only; rw [h2, hg, hnk])
    (by simp only; rw [h2, lhP, hnk]) hxs]
  congr 2
  have hPeq := msm_P (aL := aL) (sL := sL) (sR := sR) (c := sumTermr (mulFrom 1 2 n) z z m) (g := g) (h := h)
    hy0 laL hg hh lsL lsR (lst z) z x rnd.alpha rnd.rho pg.h
  rw [← hA, ← hS, ← hhP, ← hcl, ← hcr, ← hlr, ← hl, ← hr] at hPeq
  rw [decide_eq_decide, ippEq_shift (l := l) (r := r) (h5 hxs) hPeq, hl, hr, dot_lr (by omega) (by omega)]
  have hidem : ∀ a ∈ aL, a * (a - 1) = 0 := by
    intro a ha
    obtain ⟨l, hl, hal⟩ := List.mem_flatten.1 ha
    obtain ⟨x, _, rfl⟩ := List.mem_map.1 hl
    exact bits_idem _ _ a hal
  have hdc := dot_const (aL := aL) (yn := mulFrom 1 y N) (c := sumTermr (mulFrom 1 2 n) z z m)
    hidem (by rw [ly, laL]) (by rw [lst, laL]) z
  rw [laL, ← hcl, ← hcr] at hdc
  have hones := ones_sumTermr (mulFrom (1 : F) 2 n) z m
  rw [mulFrom_length, ← hN] at hones
  have hbits : dot aL (sumTermr (mulFrom 1 2 n) z z m) =
      dot (v.map fun x => ((leToNat (C.bytes x) % 2 ^ n : Nat) : F)) (weights z m) := by
    have e := dot_sumTermr (two := mulFrom (1 : F) 2 n) (z := z)
      (v.map fun vi => bits (leToNat (C.bytes vi)) n) (by
        intro l hl
        obtain ⟨x, _, rfl⟩ := List.mem_map.1 hl
        simp [mulFrom_length]) z
    rw [List.length_map, ← hmd, ← haL, mulFrom_weights, List.map_map] at e
    rw [e]
    congr 1
    apply List.map_congr_left
    intro x _
    simp only [Function.comp, dot_bits]
  have hsub : (v.map fun x => ((leToNat (C.bytes x) % 2 ^ n : Nat) : F) - x) =
      List.zipWith (· - ·) (v.map fun x => ((leToNat (C.bytes x) % 2 ^ n : Nat) : F)) v := by
    rw [List.zipWith_map_left, List.zipWith_self]
  rw [hdc, hones, hbits, hsub, dot_sub_left (by simp), dot_comm (weights z m) v]
  have e : ∀ B : F, ((dot v (weights z m) + d + t1 * x + t2 * (x * x) -
      (B + ((z - z * z) * dot (List.replicate N 1) (mulFrom 1 y N) -
        z * (dot (List.replicate n 1) (mulFrom 1 2 n) * (weights z m).sum)) + (dot sL cr + dot lr cl) * x +
        dot sL lr * (x * x))) * w) = - ((B - dot v (weights z m)) * w) := by
    intro B
    rw [hd, ← ht1, ← ht2]; ring
  rw [e, neg_smul, neg_eq_zero]

end general
end Verif.Bulletproof
