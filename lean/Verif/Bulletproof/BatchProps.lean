import Verif.Bulletproof.Batch

/-! C74, continued: completeness, rejection and crashes of aggregated range proofs. -/

set_option linter.unusedSectionVars false

namespace Verif.Bulletproof

open Verif Verif.Bytes
open Verif.OT (Ev Transcript idx)

section general
variable {F G : Type} [Field F] [DecidableEq F] [AddCommGroup G] [Module F G] [DecidableEq G]

/-- The first check of the batch verifier:
`g^tHat h^taux = Π Vⱼ^(z^(j+2)) g^δ T1^x T2^(x²)`, `δ = (z - z²)⟨1, y^nm⟩ - Σ z^(j+3)⟨1, 2ⁿ⟩`. -/
def THatEqB (p : RProof F G) (Vs : List G) (g h : G) (n : Nat) (ch : RChal F) : Prop :=
  p.tHat • g + p.taux • h =
    msm Vs (weights ch.z Vs.length) +
      ((ch.z - ch.z ^ 2) * ((List.range (n * Vs.length)).map fun i => ch.y ^ i).sum -
        ch.z * (((List.range n).map fun i => (2 : F) ^ i).sum * (weights ch.z Vs.length).sum)) • g +
      ch.x • p.capT1 + ch.x ^ 2 • p.capT2

instance decTHatB (p : RProof F G) (Vs : List G) (g h : G) (n : Nat) (ch : RChal F) :
    Decidable (THatEqB p Vs g h n ch) := by
  unfold THatEqB; infer_instance

/-- The exponents of `h'` in the commitment handed to the inner product argument: position `j·n + i` gets
`z·y^(jn+i) + z^(j+2)·2^i`. -/
def batchExp (n m : Nat) (y z : F) : List F :=
  (List.range (n * m)).map fun i => z * y ^ i + z ^ (i / n + 2) * 2 ^ (i % n)

/-- `A S^x g^(-z) h'^(…) h^(-mu)` -/
def batchP (p : RProof F G) (g hP : List G) (h0 : G) (n m : Nat) (ch : RChal F) : G :=
  p.capA + ch.x • p.capS - ch.z • g.sum + msm hP (batchExp n m ch.y ch.z) - p.mu • h0

theorem sumTermr_eq (n : Nat) (hn : 1 ≤ n) (zE z : F) (m : Nat) :
    sumTermr (mulFrom 1 2 n) zE z m = (List.range (n * m)).map fun i => zE * z ^ (i / n + 1) * 2 ^ (i % n) := by
  induction m generalizing zE with
  | zero => simp [sumTermr]
  | succ m ih =>
    rw [sumTermr, ih, mulFrom_one, Nat.mul_succ, Nat.add_comm, List.range_add, List.map_append, mulScs, List.map_map,
      List.map_map]
    congr 1
    · apply List.map_congr_left
      intro i hi
      have hi : i < n := List.mem_range.1 hi
      simp only [Function.comp, Nat.div_eq_of_lt hi, Nat.mod_eq_of_lt hi]
      ring
    · apply List.map_congr_left
      intro i _
      simp only [Function.comp]
      rw [Nat.add_div_left _ (by omega), Nat.add_mod_left]
      rw [pow_succ z (i / n + 1 )]
      ring

/-- What `VerifyBatched` does up to the inner product argument. -/
theorem verifyBatched_step (C : Curve F G) (gens : Gens G) (p : RProof F G) (Vs : List G) (pg : RGens G) (n : Nat)
    (t : Transcript) (hGH : gens.G.length = gens.H.length) (hn1 : 1 ≤ n) (hm : 2 ≤ Vs.length)
    (hn : n * Vs.length ≤ gens.G.length) (hy : (rchal C Vs p t).y ≠ 0) :
    verifyBatched C gens p Vs pg (n : Nat) t =
      if ¬ THatEqB p Vs pg.g pg.h n (rchal C Vs p t) then .err else
        verifyFromRange C (gens.G.take (n * Vs.length))
          (hPrimes (gens.H.take (n * Vs.length)) (rchal C Vs p t).y)
          (batchP p (gens.G.take (n * Vs.length)) (hPrimes (gens.H.take (n * Vs.length)) (rchal C Vs p t).y) pg.h n
            Vs.length (rchal C Vs p t))
          ((rchal C Vs p t).w • pg.u) p.tHat p.ipp (rchal C Vs p t).rest := by
  set m := Vs.length with hmd
  set N := n * m with hN
  have hN2 : 2 ≤ N := le_trans hm (Nat.le_mul_of_pos_left m hn1)
  have eNm : ((n : Nat) : Int) * (m : Int) = ((N : Nat) : Int) := by rw [hN]; push_cast; rfl
  have hg : (gens.G.take N).length = N := by simp; omega
  have hh : (gens.H.take N).length = N := by simp; omega
  set ch := rchal C Vs p t with hch
  unfold verifyBatched
  simp only [← hmd, eNm]
  rw [if_neg (by exact_mod_cast not_lt.2 hn), slice0_ok hn, Res.bind_ok, slice0_ok (hGH ▸ hn), Res.bind_ok]
  simp only [calcyz_eq, calcx, Curve.ext, Curve.app, List.append_assoc, List.cons_append, List.nil_append]
  have e1 : ch.y = C.chal (t ++ (List.map (fun V => Ev.append "addV" (C.unc V)) Vs ++
      [Ev.append "addcapA" (C.unc p.capA), Ev.append "addcapS" (C.unc p.capS)])) "gety" := by
    simp [hch, rchal]
  have e2 : ch.z = C.chal (t ++ (List.map (fun V => Ev.append "addV" (C.unc V)) Vs ++
      [Ev.append "addcapA" (C.unc p.capA), Ev.append "addcapS" (C.unc p.capS), Ev.extract "gety"])) "getz" := by
    simp [hch, rchal]
  have e3 : ch.x = C.chal (t ++ (List.map (fun V => Ev.append "addV" (C.unc V)) Vs ++
      [Ev.append "addcapA" (C.unc p.capA), Ev.append "addcapS" (C.unc p.capS), Ev.extract "gety",
        Ev.extract "getz", Ev.append "addcapT1" (C.unc p.capT1), Ev.append "addcapT2" (C.unc p.capT2)]))
      "getx" := by
    simp [hch, rchal]
  have e4 : ch.w = C.chal (t ++ (List.map (fun V => Ev.append "addV" (C.unc V)) Vs ++
      [Ev.append "addcapA" (C.unc p.capA), Ev.append "addcapS" (C.unc p.capS), Ev.extract "gety",
        Ev.extract "getz", Ev.append "addcapT1" (C.unc p.capT1), Ev.append "addcapT2" (C.unc p.capT2),
        Ev.extract "getx"])) "getw" := by
    simp [hch, rchal]
  have e5 : ch.rest = t ++ (List.map (fun V => Ev.append "addV" (C.unc V)) Vs ++
      [Ev.append "addcapA" (C.unc p.capA), Ev.append "addcapS" (C.unc p.capS), Ev.extract "gety",
        Ev.extract "getz", Ev.append "addcapT1" (C.unc p.capT1), Ev.append "addcapT2" (C.unc p.capT2),
        Ev.extract "getx", Ev.extract "getw"]) := by
    simp [hch, rchal]
  rw [← e1, ← e2, ← e3, ← e4, ← e5, deltayzBatched_ok hn1 hN2, Res.bind_ok, checktHatBatched_ok p hm hmd.symm,
    Res.bind_ok, gethPrime_ok C hh hN2 (fun e => hy e.1), Res.bind_ok,
    getPhmuBatched_ok hn1 hN2 hg (by rw [List.length_zipWith, hh, mulFrom_length, Nat.min_self]), Res.bind_ok]
  have eh : List.zipWith (fun p s => s • p) (gens.H.take N) (mulFrom 1 ch.y⁻¹ N) =
      hPrimes (gens.H.take N) ch.y := by
    have := hPrimes_eq (gens.H.take N) ch.y
    rwa [hh] at this
  rw [← hN, eh]
  have eP : p.capA + ch.x • p.capS + msm (gens.G.take N) (mulScs (-ch.z) (List.replicate N 1)) +
      (ch.z • msm (hPrimes (gens.H.take N) ch.y) (mulFrom 1 ch.y N) +
        msm (hPrimes (gens.H.take N) ch.y) (sumTermr (mulFrom 1 2 n) ch.z ch.z m)) - p.mu • pg.h =
      batchP p (gens.G.take N) (hPrimes (gens.H.take N) ch.y) pg.h n m ch := by
    unfold batchP
    have e1 := msm_ones (gens.G.take N) (-ch.z)
    rw [hg] at e1
    rw [e1, ← msm_mulScs, ← msm_add_right (by simp [mulFrom_length, sumTermr_length]; exact hN), neg_smul,
      ← sub_eq_add_neg]
    congr 3
    rw [sumTermr_eq n hn1, mulFrom_one, mulScs, List.map_map, ← hN, List.zipWith_map,
      List.zipWith_self]
    unfold batchExp
    apply List.map_congr_left
    intro i _
    simp only [Function.comp]
    ring
  rw [eP]
  have eT : decide (p.tHat • pg.g + p.taux • pg.h = msm Vs (weights ch.z m) +
      ((ch.z - ch.z * ch.z) * dot (List.replicate N 1) (mulFrom 1 ch.y N) -
        ch.z * (dot (List.replicate n 1) (mulFrom 1 2 n) * (weights ch.z m).sum)) • pg.g +
        ch.x • p.capT1 + (ch.x * ch.x) • p.capT2) = decide (THatEqB p Vs pg.g pg.h n ch) := by
    rw [decide_eq_decide]
    unfold THatEqB
    rw [dot_ones, dot_ones, ← pow_two, ← pow_two]
  rw [eT]
  simp only [decide_eq_false_iff_not]

/-- **C74 (the check).** For `m ≥ 2` commitments of `n` bits, `n·m = 2^k`, the verifier accepts a proof with `k`
pairs of cross terms exactly when the two equations of the paper hold for the challenges of the transcript; an
invalid `tHat` is an error, an invalid inner product argument the answer `false`; every other number of cross
terms panics. -/
theorem C74_verify_exact (C : Curve F G) (gens : Gens G) (p : RProof F G) (Vs : List G) (pg : RGens G) (n k : Nat)
    (t : Transcript) (hGH : gens.G.length = gens.H.length) (hn1 : 1 ≤ n) (hm : 2 ≤ Vs.length)
    (hnk : n * Vs.length = 2 ^ k) (hk : k < 63) (hn : 2 ^ k ≤ gens.G.length)
    (hLR : p.ipp.capLs.length = p.ipp.capRs.length) (hy : (rchal C Vs p t).y ≠ 0)
    (h0 : (0 : F) ∉ (challenges C p.ipp.capLs p.ipp.capRs (rchal C Vs p t).rest).1) :
    (¬ THatEqB p Vs pg.g pg.h n (rchal C Vs p t) → verifyBatched C gens p Vs pg (n : Nat) t = .err) ∧
    (THatEqB p Vs pg.g pg.h n (rchal C Vs p t) → p.ipp.capLs.length ≠ k →
      verifyBatched C gens p Vs pg (n : Nat) t = .panic) ∧
    (THatEqB p Vs pg.g pg.h n (rchal C Vs p t) → p.ipp.capLs.length = k →
      ∃ t', verifyBatched C gens p Vs pg (n : Nat) t = .ok (decide
        (IppEq (gens.G.take (2 ^ k)) (hPrimes (gens.H.take (2 ^ k)) (rchal C Vs p t).y)
          ((rchal C Vs p t).w • pg.u)
          (batchP p (gens.G.take (2 ^ k)) (hPrimes (gens.H.take (2 ^ k)) (rchal C Vs p t).y) pg.h n Vs.length
            (rchal C Vs p t) + p.tHat • (rchal C Vs p t).w • pg.u)
          p.ipp (challenges C p.ipp.capLs p.ipp.capRs (rchal C Vs p t).rest).1), t')) := by
  rw [verifyBatched_step C gens p Vs pg n t hGH hn1 hm (hnk ▸ hn) hy, hnk]
  refine ⟨fun h => by rw [if_pos h], fun h hne => ?_, fun h heq => ?_⟩
  · rw [if_neg (by simpa using h)]
    refine C72_fromRange_mismatch C _ _ _ _ _ _ _ hLR h0 ?_
    have e : (gens.G.take (2 ^ k)).length = 2 ^ k := by simp [hn]
    rw [e]
    unfold shl1
    split_ifs with q1 q2
    · intro he
      have he : (2 : Nat) ^ k = 2 ^ p.ipp.capLs.length := by exact_mod_cast he
      exact hne (Nat.pow_right_injective (le_refl 2) he).symm
    · have : (0 : Int) < ((2 ^ k : Nat) : Int) := by positivity
      omega
    · have : (0 : Int) < ((2 ^ k : Nat) : Int) := by positivity
      omega
  · rw [if_neg (by simpa using h), verifyFromRange_eq C _ _ _ _ _ _ _ hLR (by omega)
      (by rw [heq]; simp; omega) (by rw [heq]; simp; omega) h0]
    exact ⟨_, rfl⟩

theorem addPair_ok {a b : List F} (h : a.length = b.length) : addPair a b = .ok (List.zipWith (· + ·) a b) :=
  if_neg (by simp [h])

theorem subPair_ok {a b : List F} (h : a.length = b.length) : subPair a b = .ok (List.zipWith (· - ·) a b) :=
  if_neg (by simp [h])

theorem mulPair_ok {a b : List F} (h : a.length = b.length) : mulPair a b = .ok (List.zipWith (· * ·) a b) :=
  if_neg (by simp [h])

theorem batchProve_silent (C : Curve F G) (gens : Gens G) (v gamma : List F) (n : Int) (pg : RGens G) (rnd : Rnd F)
    (t : Transcript) (p : RProof F G) (t' : Transcript)
    (h : batchProve C.silent gens v gamma n pg rnd t = .ok (p, t')) :
    ((rchal C (commits v gamma pg) p t).y ≠ 0 →
      (0 : F) ∉ (challenges C p.ipp.capLs p.ipp.capRs (rchal C (commits v gamma pg) p t).rest).1 →
      batchProve C gens v gamma n pg rnd t = .ok (p, t')) ∧
    (C.invErr = true → (rchal C (commits v gamma pg) p t).y = 0 →
      ∀ o, batchProve C gens v gamma n pg rnd t ≠ .ok o) ∧
    (C.invErr = true → (rchal C (commits v gamma pg) p t).y ≠ 0 →
      (0 : F) ∈ (challenges C p.ipp.capLs p.ipp.capRs (rchal C (commits v gamma pg) p t).rest).1 →
      ∀ o, batchProve C gens v gamma n pg rnd t ≠ .ok o) := by
  unfold batchProve at h ⊢
  dsimp only at h ⊢
  have h1 : ¬ n * v.length > gens.G.length := by
    intro hgt
    rw [if_pos hgt] at h
    exact nomatch h
  rw [if_neg h1] at h ⊢
  obtain ⟨pG, hpG, h⟩ := Res.bind_eq_ok.1 h
  obtain ⟨pH, hpH, h⟩ := Res.bind_eq_ok.1 h
  obtain ⟨us, hus, h⟩ := Res.bind_eq_ok.1 h
  have hus : v.mapM (fun vi => checkRange C vi n) = .ok us := hus
  obtain ⟨aL, haL, h⟩ := Res.bind_eq_ok.1 h
  have haL : getaLBatched C n.toNat v = .ok aL := by
    rw [← haL]
    clear * -
    induction v with
    | nil => rfl
    | cons a v ih => simp only [getaLBatched]; rw [ih]; rfl
  rw [hpG, Res.bind_ok, hpH, Res.bind_ok, hus, Res.bind_ok, haL, Res.bind_ok]
  obtain ⟨onen, k1, h⟩ := Res.bind_eq_ok.1 h
  obtain ⟨aR, k2, h⟩ := Res.bind_eq_ok.1 h
  obtain ⟨_, k3, h⟩ := Res.bind_eq_ok.1 h
  obtain ⟨_, k4, h⟩ := Res.bind_eq_ok.1 h
  obtain ⟨_, k5, h⟩ := Res.bind_eq_ok.1 h
  obtain ⟨_, k6, h⟩ := Res.bind_eq_ok.1 h
  obtain ⟨Vs, k6', h⟩ := Res.bind_eq_ok.1 h
  have hV : Vs = commits v gamma pg := by
    by_cases hl : v.length ≤ gamma.length
    · rw [capVBatched_ok pg hl] at k6'
      exact (Res.ok.inj k6').symm
    · rw [capVBatched_panic _ _ (by omega)] at k6'
      exact nomatch k6'
  subst hV
  rw [k1, Res.bind_ok, k2, Res.bind_ok, k3, Res.bind_ok, k4, Res.bind_ok]
  rw [k5, Res.bind_ok, k6, Res.bind_ok, k6', Res.bind_ok]
  simp only [calcyz_eq] at h ⊢
  obtain ⟨cl, k7, h⟩ := Res.bind_eq_ok.1 h
  obtain ⟨_, k8, h⟩ := Res.bind_eq_ok.1 h
  obtain ⟨_, k9, h⟩ := Res.bind_eq_ok.1 h
  obtain ⟨_, k10, h⟩ := Res.bind_eq_ok.1 h
  obtain ⟨_, k11, h⟩ := Res.bind_eq_ok.1 h
  obtain ⟨_, k12, h⟩ := Res.bind_eq_ok.1 h
  obtain ⟨_, k13, h⟩ := Res.bind_eq_ok.1 h
  obtain ⟨_, k14, h⟩ := Res.bind_eq_ok.1 h
  obtain ⟨_, k15, h⟩ := Res.bind_eq_ok.1 h
  obtain ⟨_, k16, h⟩ := Res.bind_eq_ok.1 h
  erw [k7, Res.bind_ok, k8, Res.bind_ok, k9, Res.bind_ok, k10, Res.bind_ok, k11, Res.bind_ok, k12, Res.bind_ok, k13,
    Res.bind_ok, k14, Res.bind_ok, k15, Res.bind_ok, k16, Res.bind_ok]
  simp only [calcx, Curve.ext] at h ⊢
  obtain ⟨l, k17, h⟩ := Res.bind_eq_ok.1 h
  obtain ⟨_, k18, h⟩ := Res.bind_eq_ok.1 h
  obtain ⟨_, j1, h⟩ := Res.bind_eq_ok.1 h
  obtain ⟨_, j2, h⟩ := Res.bind_eq_ok.1 h
  obtain ⟨_, k19, h⟩ := Res.bind_eq_ok.1 h
  obtain ⟨_, j3, h⟩ := Res.bind_eq_ok.1 h
  obtain ⟨hP, k20, h⟩ := Res.bind_eq_ok.1 h
  obtain ⟨_, k21, h⟩ := Res.bind_eq_ok.1 h
  obtain ⟨⟨ipp, t''⟩, k22, h⟩ := Res.bind_eq_ok.1 h
  erw [k17, Res.bind_ok, k18, Res.bind_ok, j1, Res.bind_ok, j2, Res.bind_ok, k19, Res.bind_ok, j3, Res.bind_ok]
  obtain ⟨e1, e2⟩ := Prod.mk.inj (Res.ok.inj h)
  subst e1 e2
  have q := rangeToIPP_silent C _ _ _ _ _ _ _ _ k22
  refine ⟨fun hy h0 => ?_, fun hi hy o ho => ?_, fun hi hy h0 o => ?_⟩
  · have g1 := ((gethPrime_silent C pH _).1 hy).trans k20
    erw [g1, Res.bind_ok, k21, Res.bind_ok, q.2 h0, Res.bind_ok]
    rfl
  · obtain ⟨hP', k23, _⟩ := Res.bind_eq_ok.1 ho
    exact (gethPrime_silent C pH _).2 hi hy _ k23
  · have g1 := ((gethPrime_silent C pH _).1 hy).trans k20
    erw [g1, Res.bind_ok, k21, Res.bind_ok, q.1 hi h0]
    nofun

theorem verifyBatched_silent (C : Curve F G) (gens : Gens G) (p : RProof F G) (Vs : List G) (pg : RGens G) (n k : Nat)
    (t : Transcript) (hGH : gens.G.length = gens.H.length) (hn1 : 1 ≤ n) (hm : 2 ≤ Vs.length)
    (hnk : n * Vs.length = 2 ^ k) (hk : k < 63) (hn : 2 ^ k ≤ gens.G.length)
    (hLs : p.ipp.capLs.length = k) (hRs : p.ipp.capRs.length = k) (hy : (rchal C Vs p t).y ≠ 0)
    (h0 : (0 : F) ∉ (challenges C p.ipp.capLs p.ipp.capRs (rchal C Vs p t).rest).1) :
    verifyBatched C.silent gens p Vs pg (n : Nat) t = verifyBatched C gens p Vs pg (n : Nat) t := by
  rw [verifyBatched_step C gens p Vs pg n t hGH hn1 hm (hnk ▸ hn) hy,
    verifyBatched_step C.silent gens p Vs pg n t hGH hn1 hm (hnk ▸ hn) hy]
  by_cases hT : THatEqB p Vs pg.g pg.h n (rchal C Vs p t)
  · have hT' : THatEqB p Vs pg.g pg.h n (rchal C.silent Vs p t) := hT
    rw [if_neg (not_not_intro hT'), if_neg (not_not_intro hT), verifyFromRange_eq C _ _ _ _ _ _ _ (hLs.trans hRs.symm)
      (by omega) (by rw [hLs]; simp; omega) (by rw [hLs]; simp; omega) h0]
    refine (verifyFromRange_eq C.silent _ _ _ _ _ _ _ (hLs.trans hRs.symm) (by omega)
      (by rw [hLs]; simp; omega) (by rw [hLs]; simp; omega) (by rw [silent_challenges]; exact h0)).trans ?_
    simp only [silent_challenges]
    rfl
  · have hT' : ¬ THatEqB p Vs pg.g pg.h n (rchal C.silent Vs p t) := hT
    rw [if_pos hT', if_pos hT]

/-- **C74 (honest run).** For `m ≥ 2` values of `n ≥ 1` bits, `n·m = 2^k` covered by the generators and `n` by
the scalar encoding, at least as many blinding factors as values, and values that pass the check `vⱼ ≤ 2^n`: if
none of the challenges the run draws is zero, `BatchProve` returns a proof on which `VerifyBatched` answers
without an error, and the answer is `true` exactly when `(Σ z^(j+2) (Bⱼ mod 2^n - vⱼ))·w·u` is the identity,
where `Bⱼ` is the encoding of `vⱼ` read as a little-endian number; if one is zero and inversion reports it,
`BatchProve` returns no proof.  (The run on the curve `C.silent`, whose inversion does not report zero, always
ends, and names the challenges.) -/
theorem C74_honest {C : Curve F G} {L : Nat} (hc : ScalarCodec C L) (gens : Gens G) (v gamma : List F) (n k : Nat)
    (pg : RGens G) (rnd : Rnd F) (t : Transcript)
    (hGH : gens.G.length = gens.H.length) (hn1 : 1 ≤ n) (hm : 2 ≤ v.length) (hnk : n * v.length = 2 ^ k)
    (hk : k < 63) (hle : 2 ^ k ≤ gens.G.length) (hL : n ≤ 8 * L) (hgam : v.length ≤ gamma.length)
    (hv : ∀ x ∈ v, C.big x ≤ 2 ^ n) :
    ∃ p t', batchProve C.silent gens v gamma (n : Nat) pg rnd t = .ok (p, t') ∧
      (C.invErr = true → (rchal C (commits v gamma pg) p t).y = 0 ∨
        (0 : F) ∈ (challenges C p.ipp.capLs p.ipp.capRs (rchal C (commits v gamma pg) p t).rest).1 →
        ∀ o, batchProve C gens v gamma (n : Nat) pg rnd t ≠ .ok o) ∧
      ((rchal C (commits v gamma pg) p t).y ≠ 0 →
        (0 : F) ∉ (challenges C p.ipp.capLs p.ipp.capRs (rchal C (commits v gamma pg) p t).rest).1 →
        batchProve C gens v gamma (n : Nat) pg rnd t = .ok (p, t') ∧
        verifyBatched C gens p (commits v gamma pg) pg (n : Nat) t =
          .ok (decide ((dot (v.map fun x => ((leToNat (C.bytes x) % 2 ^ n : Nat) : F) - x)
            (weights (rchal C (commits v gamma pg) p t).z v.length) * (rchal C (commits v gamma pg) p t).w) • pg.u = 0), t')) := by
  obtain ⟨p, t', h1, h2, h3, h4⟩ := batch_quiet (C := C.silent) (L := L) ⟨hc.len, hc.rt⟩ rfl gens v gamma n k pg rnd t
    hGH hn1 hm hnk hk hle hL hgam hv
  obtain ⟨q1, q2, q3⟩ := batchProve_silent C gens v gamma _ pg rnd t p t' h1
  refine ⟨p, t', h1, fun hi hb => ?_, fun hy h0 => ⟨q1 hy h0, ?_⟩⟩
  · by_cases hy : (rchal C (commits v gamma pg) p t).y = 0
    · exact q2 hi hy
    · exact q3 hi hy (hb.resolve_left hy)
  · have lV := length_commits pg hgam
    rw [← verifyBatched_silent C gens p _ pg n k t hGH hn1 (by rw [lV]; exact hm) (by rw [lV]; exact hnk) hk hle h2 h3
      hy h0]
    exact h4 hy (by rw [silent_challenges]; exact h0)

/-- **C74 (one value).** A batch of a single value crashes on both sides, whatever the bit length. -/
theorem C74_single_panics {C : Curve F G} {L : Nat} (hc : ScalarCodec C L) (gens : Gens G) (pg : RGens G)
    (t : Transcript) (hGH : gens.G.length = gens.H.length) (n : Nat) (hn1 : 1 ≤ n) (hn : n ≤ gens.G.length) :
    (∀ v gamma rnd, C.big v ≤ 2 ^ n → batchProve C gens [v] gamma (n : Nat) pg rnd t = .panic) ∧
    (∀ p V, verifyBatched C gens p [V] pg (n : Nat) t = .panic) := by
  have e1 : ((n : Nat) : Int) * (([(0 : F)].length : Nat) : Int) = ((n : Nat) : Int) := by simp
  constructor
  · intro v gamma rnd hv
    unfold batchProve
    obtain ⟨us, hus⟩ := checkRange_all C (v := [v]) (n := n) (by simpa using hv)
    simp only [List.length_cons, List.length_nil, Nat.zero_add, Nat.cast_one, mul_one]
    rw [if_neg (by exact_mod_cast not_lt.2 hn), slice0_ok hn, Res.bind_ok, slice0_ok (hGH ▸ hn), Res.bind_ok,
      hus, Res.bind_ok, Int.toNat_natCast]
    by_cases hL : n ≤ 8 * L
    swap
    · unfold getaLBatched
      rw [getaL_panic hc v (by omega)]; rfl
    rw [getaLBatched_ok hc hL, Res.bind_ok, get1n_ok, Res.bind_ok]
    rw [subPair_ok (by simp), Res.bind_ok, sop_ok (by simp; omega), Res.bind_ok, sop_ok (by simp; omega), Res.bind_ok]
    rw [sop_ok (by simp; omega), Res.bind_ok, sop_ok (by simp; omega), Res.bind_ok]
    cases gamma with
    | nil => rfl
    | cons gm gms =>
      rw [capVBatched_ok pg (by simp), Res.bind_ok]
      simp only [calcyz_eq]
      rw [subPair_ok (by simp), Res.bind_ok, get2n_ok hn1, Res.bind_ok]
      rw [addPair_ok (by simp), Res.bind_ok]
      rcases Nat.lt_or_ge n 2 with h2 | h2
      · unfold getkn
        rw [if_pos (by omega)]; rfl
      rw [getkn_ok _ h2, Res.bind_ok, mulPair_ok (by simp [mulFrom_length]), Res.bind_ok,
        addPair_ok (by simp [mulFrom_length, sumTermr_length]), Res.bind_ok, mulPair_ok (by simp [mulFrom_length]), Res.bind_ok,
        innerProduct_ok (by simp [mulFrom_length, sumTermr_length]) (by simp; omega), Res.bind_ok,
        innerProduct_ok (by simp [mulFrom_length]) (by simp [mulFrom_length]; omega), Res.bind_ok,
        innerProduct_ok (by simp [mulFrom_length]) (by simp; omega), Res.bind_ok]
      simp only [calcx, Curve.ext]
      rw [addPair_ok (by simp), Res.bind_ok, addPair_ok (by simp [mulFrom_length, sumTermr_length]), Res.bind_ok]
      unfold getkn
      rw [if_pos (by omega)]; rfl
  · intro p V
    unfold verifyBatched
    simp only [List.length_cons, List.length_nil, Nat.zero_add, Nat.cast_one, mul_one]
    rw [if_neg (by exact_mod_cast not_lt.2 hn), slice0_ok hn, Res.bind_ok, slice0_ok (hGH ▸ hn), Res.bind_ok]
    simp only [calcyz_eq, calcx, Curve.ext]
    rcases Nat.lt_or_ge n 2 with h2 | h2
    · unfold deltayzBatched
      simp only [Nat.cast_one, mul_one]
      rw [get1n_ok, Res.bind_ok]
      unfold getkn
      rw [if_pos (by omega)]; rfl
    · rw [deltayzBatched_ok hn1 (by omega), Res.bind_ok]
      unfold checktHatBatched getkn
      rw [if_pos (by omega)]; rfl

/-- **C74 (blinding factors).** Fewer blinding factors than values is a crash, not an error. -/
theorem C74_short_gamma {C : Curve F G} {L : Nat} (hc : ScalarCodec C L) (gens : Gens G) (v gamma : List F)
    (n : Nat) (pg : RGens G) (rnd : Rnd F) (t : Transcript) (hGH : gens.G.length = gens.H.length)
    (hn : n * v.length ≤ gens.G.length) (hv : ∀ x ∈ v, C.big x ≤ 2 ^ n)
    (hg : gamma.length < v.length) : batchProve C gens v gamma (n : Nat) pg rnd t = .panic := by
  unfold batchProve
  obtain ⟨us, hus⟩ := checkRange_all C hv
  have eNm : ((n : Nat) : Int) * (v.length : Int) = ((n * v.length : Nat) : Int) := by push_cast; rfl
  simp only [eNm]
  rw [if_neg (by exact_mod_cast not_lt.2 hn), slice0_ok hn, Res.bind_ok, slice0_ok (hGH ▸ hn), Res.bind_ok,
    hus, Res.bind_ok, Int.toNat_natCast, Int.toNat_natCast]
  by_cases hL : n ≤ 8 * L
  swap
  · cases v with
    | nil => simp at hg
    | cons a v =>
      unfold getaLBatched
      rw [getaL_panic hc a (by omega)]; rfl
  have hfl : ∀ w : List F, (w.map fun vi => (bits (leToNat (C.bytes vi)) n : List F)).flatten.length =
      n * w.length := by
    intro w
    rw [flatten_length (n := n) (by
      intro l hl
      obtain ⟨x, _, rfl⟩ := List.mem_map.1 hl
      simp), List.length_map]
  rw [getaLBatched_ok hc hL, Res.bind_ok, get1n_ok, Res.bind_ok]
  unfold subPair
  have hH : n * v.length ≤ gens.H.length := hGH ▸ hn
  rw [pair_ok (by rw [hfl]; simp), Res.bind_ok, sop_ok (by rw [hfl, List.length_take]; omega), Res.bind_ok,
    sop_ok (by rw [List.length_zipWith, hfl]; simp [hH]), Res.bind_ok]
  rw [sop_ok (by simp [hn]), Res.bind_ok, sop_ok (by simp [hH]), Res.bind_ok,
    capVBatched_panic _ _ hg]; rfl

/-- **C74 (bounds).** More bits than generators, or a value above `2^n`, is an error. -/
theorem C74_refused (C : Curve F G) (gens : Gens G) (v gamma : List F) (n : Nat) (pg : RGens G) (rnd : Rnd F)
    (t : Transcript) (hGH : gens.G.length = gens.H.length) :
    (gens.G.length < n * v.length → batchProve C gens v gamma (n : Nat) pg rnd t = .err) ∧
    (∀ p Vs, gens.G.length < n * Vs.length → verifyBatched C gens p Vs pg (n : Nat) t = .err) ∧
    (n * v.length ≤ gens.G.length → (∃ x ∈ v, 2 ^ n < C.big x) →
      batchProve C gens v gamma (n : Nat) pg rnd t = .err) := by
  have eNm : ∀ m : Nat, ((n : Nat) : Int) * (m : Int) = ((n * m : Nat) : Int) := by intro m; push_cast; rfl
  refine ⟨fun h => ?_, fun p Vs h => ?_, fun hn ⟨x, hx, hb⟩ => ?_⟩
  · unfold batchProve
    simp only [eNm]
    rw [if_pos (by exact_mod_cast h)]
  · unfold verifyBatched
    simp only [eNm]
    rw [if_pos (by exact_mod_cast h)]
  · unfold batchProve
    simp only [eNm]
    rw [if_neg (by exact_mod_cast not_lt.2 hn), slice0_ok hn, Res.bind_ok, slice0_ok (hGH ▸ hn), Res.bind_ok]
    have : v.mapM (fun vi => checkRange C vi (n : Int)) = .err := by
      clear hn
      induction v with
      | nil => simp at hx
      | cons a v ih =>
        rw [List.mapM_cons]
        by_cases ha : 2 ^ n < C.big a
        · have : checkRange C a (n : Int) = .err := by
            unfold checkRange; rw [if_neg (by omega), Int.toNat_natCast, if_pos ha]
          rw [this]; rfl
        · have : checkRange C a (n : Int) = .ok () := by
            unfold checkRange; rw [if_neg (by omega), Int.toNat_natCast, if_neg (by omega)]
          have hx' : x ∈ v := by
            rcases List.mem_cons.1 hx with rfl | h
            · exact absurd hb ha
            · exact h
          rw [this, Res.bind_ok, ih ⟨x, hx', hb⟩ hx']; rfl
    rw [this]; rfl

end general

section curves
variable {q : Nat} [Fact q.Prime] {G : Type} [AddCommGroup G] [Module (ZMod q) G] [DecidableEq G]

/-- the conditions under which honest batch proofs exist -/
structure BSized (gens : Gens G) (L n m k : Nat) : Prop where
  eq : gens.G.length = gens.H.length
  bits : 1 ≤ n
  two : 2 ≤ m
  pow : n * m = 2 ^ k
  lt : k < 63
  gens : 2 ^ k ≤ gens.G.length
  bytes : n ≤ 8 * L

/-- no challenge of the run is zero -/
def NonZeroB (C : Curve (ZMod q) G) (Vs : List G) (p : RProof (ZMod q) G) (t : Transcript) : Prop :=
  (rchal C Vs p t).y ≠ 0 ∧ (rchal C Vs p t).w ≠ 0 ∧
    (0 : ZMod q) ∉ (challenges C p.ipp.capLs p.ipp.capRs (rchal C Vs p t).rest).1

/-- What holds of an honest run (see `Honest`). -/
def HonestB (C : Curve (ZMod q) G) (gens : Gens G) (v gamma : List (ZMod q)) (n : Nat) (pg : RGens G)
    (rnd : Rnd (ZMod q)) (t : Transcript) (answer : RChal (ZMod q) → Bool) : Prop :=
  ∃ p t', batchProve C.silent gens v gamma (n : Nat) pg rnd t = .ok (p, t') ∧
    (NonZeroB C (commits v gamma pg) p t →
      batchProve C gens v gamma (n : Nat) pg rnd t = .ok (p, t') ∧
      verifyBatched C gens p (commits v gamma pg) pg (n : Nat) t =
        .ok (answer (rchal C (commits v gamma pg) p t), t'))

/-- **C74 (completeness, little-endian curves).** A batch of values in `[0, 2^n)` gets a proof, and
`VerifyBatched` accepts it for the commitments `g^vⱼ h^gammaⱼ`. -/
theorem C74_completeness {C : Curve (ZMod q) G} {L : Nat} (hc : LittleEndian C L) (gens : Gens G)
    (v gamma : List (ZMod q)) (n k : Nat) (pg : RGens G) (rnd : Rnd (ZMod q)) (t : Transcript)
    (hs : BSized gens L n v.length k) (hg : v.length ≤ gamma.length) (hv : ∀ x ∈ v, x.val < 2 ^ n) :
    HonestB C gens v gamma n pg rnd t fun _ => true := by
  have : NeZero q := ⟨(Fact.out : q.Prime).ne_zero⟩
  obtain ⟨p, t', h1, _, h2⟩ := C74_honest hc.codec gens v gamma n k pg rnd t hs.eq hs.bits hs.two hs.pow hs.lt hs.gens
    hs.bytes hg (fun x hx => by rw [hc.big]; exact (hv x hx).le)
  refine ⟨p, t', h1, fun hz => ?_⟩
  obtain ⟨h3, h4⟩ := h2 hz.1 hz.2.2
  refine ⟨h3, ?_⟩
  rw [h4]
  have : (v.map fun x => ((leToNat (C.bytes x) % 2 ^ n : Nat) : ZMod q) - x) = v.map fun _ => 0 := by
    apply List.map_congr_left
    intro x hx
    rw [hc.bytes, leToNat_natToLE, Nat.mod_eq_of_lt (lt_of_lt_of_le (ZMod.val_lt x) hc.order),
      Nat.mod_eq_of_lt (hv x hx), ZMod.natCast_zmod_val, sub_self]
  rw [this]
  have hz : ∀ (l w : List (ZMod q)), dot (l.map fun _ => (0 : ZMod q)) w = 0 := by
    intro l
    induction l with
    | nil => simp
    | cons a l ih => intro w; cases w with
      | nil => simp [dot]
      | cons b w => rw [List.map_cons, dot_cons, ih, zero_mul, zero_add]
  rw [hz, zero_mul, zero_smul]
  simp

/-- **C74 (big-endian curves).** With 32 byte big-endian scalars and `n ≤ 128` the answer on an honest proof is
`true` exactly when the challenge `z` happens to be a root of the polynomial `Σ vⱼ z^(j+2)`. -/
theorem C74_big_endian {C : Curve (ZMod q) G} (hc : BigEndian C 32) (gens : Gens G)
    (v gamma : List (ZMod q)) (n k : Nat) (pg : RGens G) (rnd : Rnd (ZMod q)) (t : Transcript)
    (hs : BSized gens 32 n v.length k) (hn : n ≤ 128) (hg : v.length ≤ gamma.length)
    (hv : ∀ x ∈ v, x.val < 2 ^ n) (hu : pg.u ≠ 0) :
    HonestB C gens v gamma n pg rnd t fun ch => decide (dot v (weights ch.z v.length) = 0) := by
  have : NeZero q := ⟨(Fact.out : q.Prime).ne_zero⟩
  obtain ⟨p, t', h1, _, h2⟩ := C74_honest hc.codec gens v gamma n k pg rnd t hs.eq hs.bits hs.two hs.pow hs.lt hs.gens
    hs.bytes hg (fun x hx => by rw [hc.big]; exact (hv x hx).le)
  refine ⟨p, t', h1, fun hz => ?_⟩
  obtain ⟨h3, h4⟩ := h2 hz.1 hz.2.2
  refine ⟨h3, ?_⟩
  rw [h4]
  have : (v.map fun x => ((leToNat (C.bytes x) % 2 ^ n : Nat) : ZMod q) - x) = mulScs (-1) v := by
    unfold mulScs
    apply List.map_congr_left
    intro x hx
    have hB : leToNat (C.bytes x) % 2 ^ n = 0 := by
      rw [hc.bytes]
      exact be_low_bits hn (hv x hx)
    rw [hB]; simp
  rw [this, dot_mulScs_left]
  congr 2
  rw [decide_eq_decide]
  constructor
  · intro h
    by_contra hne
    exact smul_ne (mul_ne_zero (mul_ne_zero (neg_ne_zero.2 one_ne_zero) hne) hz.2.1) hu h
  · intro h; rw [h]; simp

end curves

end Verif.Bulletproof
