import Verif.Bulletproof.Range
import Mathlib.Algebra.Field.ZMod

/-! C73, continued: which values are provable on which curves, what the verifier decides, and where it
crashes. -/

set_option linter.unusedSectionVars false

namespace Verif.Bulletproof

open Verif Verif.Bytes
open Verif.OT (Ev Transcript idx)

section general
variable {F G : Type} [Field F] [DecidableEq F] [AddCommGroup G] [Module F G] [DecidableEq G]

/-- The first check of the range verifier: `g^tHat h^taux = V^(z²) g^δ(y,z) T1^x T2^(x²)`, with
`δ(y,z) = (z - z²)⟨1, yⁿ⟩ - z³⟨1, 2ⁿ⟩`. -/
def THatEq (p : RProof F G) (V g h : G) (n : Nat) (ch : RChal F) : Prop :=
  p.tHat • g + p.taux • h =
    ch.z ^ 2 • V +
      ((ch.z - ch.z ^ 2) * ((List.range n).map fun i => ch.y ^ i).sum -
        ch.z ^ 3 * ((List.range n).map fun i => (2 : F) ^ i).sum) • g +
      ch.x • p.capT1 + ch.x ^ 2 • p.capT2

instance decTHat (p : RProof F G) (V g h : G) (n : Nat) (ch : RChal F) : Decidable (THatEq p V g h n ch) := by
  unfold THatEq; infer_instance

/-- The commitment the range verifier hands to the inner product argument:
`A S^x g^(-z) h'^(z yⁿ + z² 2ⁿ) h^(-mu)`. -/
def rangeP (p : RProof F G) (g hP : List G) (h0 : G) (n : Nat) (ch : RChal F) : G :=
  p.capA + ch.x • p.capS - ch.z • g.sum +
    msm hP ((List.range n).map fun i => ch.z * ch.y ^ i + ch.z ^ 2 * 2 ^ i) - p.mu • h0

/-- `h'ᵢ = hᵢ^(y^-i)` -/
def hPrimes (h : List G) (y : F) : List G :=
  List.zipWith (fun p s => s • p) h ((List.range h.length).map fun i => (y⁻¹) ^ i)

theorem dot_replicate (l : List F) : dot (List.replicate l.length 1) l = l.sum := by
  induction l with
  | nil => simp
  | cons a l ih => simp [List.replicate_succ, ih]

theorem mulFrom_one (y : F) (n : Nat) : mulFrom 1 y n = (List.range n).map fun i => y ^ i := by
  rw [mulFrom_eq]; simp

theorem dot_ones (y : F) (n : Nat) :
    dot (List.replicate n 1) (mulFrom 1 y n) = ((List.range n).map fun i => y ^ i).sum := by
  have := dot_replicate (mulFrom 1 y n)
  rw [mulFrom_length] at this
  rw [this, mulFrom_one]

theorem msm_ones (g : List G) (z : F) :
    msm g (mulScs z (List.replicate g.length 1)) = z • g.sum := by
  rw [msm_mulScs]
  congr 1
  induction g with
  | nil => simp
  | cons p g ih => simp [List.replicate_succ, ih]

theorem hPrimes_eq (h : List G) (y : F) :
    List.zipWith (fun p s => s • p) h (mulFrom 1 y⁻¹ h.length) = hPrimes h y := by
  rw [mulFrom_one]; rfl

@[simp] theorem length_hPrimes (h : List G) (y : F) : (hPrimes h y).length = h.length := by simp [hPrimes]

/-- The first half of the verifier: challenges, the `tHat` check, and what goes into the inner product
verifier. -/
theorem rangeVerify_step (C : Curve F G) (gens : Gens G) (p : RProof F G) (V : G) (pg : RGens G) (n : Nat)
    (t : Transcript) (hGH : gens.G.length = gens.H.length) (hn2 : 2 ≤ n) (hn : n ≤ gens.G.length)
    (hy : (rchal C [V] p t).y ≠ 0) :
    (¬ THatEq p V pg.g pg.h n (rchal C [V] p t) → rangeVerify C gens p V pg (n : Nat) t = .err) ∧
    (THatEq p V pg.g pg.h n (rchal C [V] p t) →
      rangeVerify C gens p V pg (n : Nat) t =
        verifyFromRange C (gens.G.take n) (hPrimes (gens.H.take n) (rchal C [V] p t).y)
          (rangeP p (gens.G.take n) (hPrimes (gens.H.take n) (rchal C [V] p t).y) pg.h n (rchal C [V] p t))
          ((rchal C [V] p t).w • pg.u) p.tHat p.ipp (rchal C [V] p t).rest) := by
  have hg : (gens.G.take n).length = n := by simp; omega
  have hh : (gens.H.take n).length = n := by simp; omega
  set ch := rchal C [V] p t with hch
  have key : rangeVerify C gens p V pg (n : Nat) t =
      if decide (THatEq p V pg.g pg.h n ch) = false then .err else
        verifyFromRange C (gens.G.take n) (hPrimes (gens.H.take n) ch.y)
          (rangeP p (gens.G.take n) (hPrimes (gens.H.take n) ch.y) pg.h n ch)
          (ch.w • pg.u) p.tHat p.ipp ch.rest := by
    unfold rangeVerify
    rw [if_neg (by exact_mod_cast not_lt.2 hn), slice0_ok hn, Res.bind_ok, slice0_ok (hGH ▸ hn), Res.bind_ok]
    simp only [calcyz_eq, calcx, Curve.ext, Curve.app, List.append_assoc, List.cons_append, List.nil_append]
    have e1 : ch.y = C.chal (t ++ (List.map (fun V => Ev.append "addV" (C.unc V)) [V] ++
        [Ev.append "addcapA" (C.unc p.capA), Ev.append "addcapS" (C.unc p.capS)])) "gety" := by
      simp [hch, rchal]
    have e2 : ch.z = C.chal (t ++ (List.map (fun V => Ev.append "addV" (C.unc V)) [V] ++
        [Ev.append "addcapA" (C.unc p.capA), Ev.append "addcapS" (C.unc p.capS), Ev.extract "gety"])) "getz" := by
      simp [hch, rchal]
    have e3 : ch.x = C.chal (t ++ (List.map (fun V => Ev.append "addV" (C.unc V)) [V] ++
        [Ev.append "addcapA" (C.unc p.capA), Ev.append "addcapS" (C.unc p.capS), Ev.extract "gety",
          Ev.extract "getz", Ev.append "addcapT1" (C.unc p.capT1), Ev.append "addcapT2" (C.unc p.capT2)]))
        "getx" := by
      simp [hch, rchal]
    have e4 : ch.w = C.chal (t ++ (List.map (fun V => Ev.append "addV" (C.unc V)) [V] ++
        [Ev.append "addcapA" (C.unc p.capA), Ev.append "addcapS" (C.unc p.capS), Ev.extract "gety",
          Ev.extract "getz", Ev.append "addcapT1" (C.unc p.capT1), Ev.append "addcapT2" (C.unc p.capT2),
          Ev.extract "getx"])) "getw" := by
      simp [hch, rchal]
    have e5 : ch.rest = t ++ (List.map (fun V => Ev.append "addV" (C.unc V)) [V] ++
        [Ev.append "addcapA" (C.unc p.capA), Ev.append "addcapS" (C.unc p.capS), Ev.extract "gety",
          Ev.extract "getz", Ev.append "addcapT1" (C.unc p.capT1), Ev.append "addcapT2" (C.unc p.capT2),
          Ev.extract "getx", Ev.extract "getw"]) := by
      simp [hch, rchal]
    rw [← e1, ← e2, ← e3, ← e4, ← e5, deltayz_ok hn2, Res.bind_ok,
      gethPrime_ok C hh hn2 (fun e => hy e.1), Res.bind_ok,
      getPhmu_ok hn2 hg (by rw [List.length_zipWith, hh, mulFrom_length, Nat.min_self]), Res.bind_ok]
    have eh : List.zipWith (fun p s => s • p) (gens.H.take n) (mulFrom 1 ch.y⁻¹ n) =
        hPrimes (gens.H.take n) ch.y := by
      have := hPrimes_eq (gens.H.take n) ch.y
      rwa [hh] at this
    rw [eh]
    have eP : p.capA + ch.x • p.capS + msm (gens.G.take n) (mulScs (-ch.z) (List.replicate n 1)) +
        (ch.z • msm (hPrimes (gens.H.take n) ch.y) (mulFrom 1 ch.y n) +
          msm (hPrimes (gens.H.take n) ch.y) (mulScs (ch.z * ch.z) (mulFrom 1 2 n))) - p.mu • pg.h =
        rangeP p (gens.G.take n) (hPrimes (gens.H.take n) ch.y) pg.h n ch := by
      unfold rangeP
      have e1 := msm_ones (gens.G.take n) (-ch.z)
      rw [hg] at e1
      rw [e1, ← msm_mulScs, ← msm_add_right (by simp [mulFrom_length]), neg_smul, ← sub_eq_add_neg]
      congr 3
      rw [mulFrom_one, mulFrom_one, mulScs, mulScs, List.map_map, List.map_map, List.zipWith_map,
        List.zipWith_self]
      apply List.map_congr_left
      intro i _
      simp only [Function.comp]
      ring
    rw [eP]
    have eT : checktHat p V pg.g pg.h
        ((ch.z - ch.z * ch.z) * dot (List.replicate n 1) (mulFrom 1 ch.y n) -
          ch.z * ch.z * ch.z * dot (List.replicate n 1) (mulFrom 1 2 n)) ch.x ch.z =
        decide (THatEq p V pg.g pg.h n ch) := by
      unfold checktHat
      rw [decide_eq_decide]
      unfold THatEq
      rw [dot_ones, dot_ones, ← pow_two, ← pow_two, ← pow_succ]
    rw [eT]
  constructor
  · intro h
    rw [key, if_pos (decide_eq_false h)]
  · intro h
    rw [key, if_neg (by rw [decide_eq_true h]; simp)]

/-- **C73 (the check).** For a bit length `2^k` the verifier accepts a proof with `k` pairs of cross terms
exactly when the two equations of the paper hold for the challenges of the transcript: an invalid `tHat` is an
error, an invalid inner product argument the answer `false`. -/
theorem C73_verify_exact (C : Curve F G) (gens : Gens G) (p : RProof F G) (V : G) (pg : RGens G) (k : Nat)
    (t : Transcript) (hGH : gens.G.length = gens.H.length) (hk1 : 1 ≤ k) (hk : k < 63)
    (hn : 2 ^ k ≤ gens.G.length) (hLs : p.ipp.capLs.length = k) (hRs : p.ipp.capRs.length = k)
    (hy : (rchal C [V] p t).y ≠ 0)
    (h0 : (0 : F) ∉ (challenges C p.ipp.capLs p.ipp.capRs (rchal C [V] p t).rest).1) :
    (¬ THatEq p V pg.g pg.h (2 ^ k) (rchal C [V] p t) →
      rangeVerify C gens p V pg (2 ^ k : Nat) t = .err) ∧
    (THatEq p V pg.g pg.h (2 ^ k) (rchal C [V] p t) →
      ∃ t', rangeVerify C gens p V pg (2 ^ k : Nat) t = .ok (decide
        (IppEq (gens.G.take (2 ^ k)) (hPrimes (gens.H.take (2 ^ k)) (rchal C [V] p t).y)
          ((rchal C [V] p t).w • pg.u)
          (rangeP p (gens.G.take (2 ^ k)) (hPrimes (gens.H.take (2 ^ k)) (rchal C [V] p t).y) pg.h (2 ^ k)
            (rchal C [V] p t) + p.tHat • (rchal C [V] p t).w • pg.u)
          p.ipp (challenges C p.ipp.capLs p.ipp.capRs (rchal C [V] p t).rest).1), t')) := by
  have hn2 : 2 ≤ 2 ^ k := by
    have := Nat.pow_le_pow_right (n := 2) (by omega) hk1
    omega
  obtain ⟨s1, s2⟩ := rangeVerify_step C gens p V pg (2 ^ k) t hGH hn2 hn hy
  refine ⟨s1, fun h => ?_⟩
  rw [s2 h, verifyFromRange_eq C _ _ _ _ _ _ _ (hLs.trans hRs.symm) (by omega)
    (by simp [hLs]; omega) (by simp [hLs]; omega) h0]
  exact ⟨_, rfl⟩

/-- **C73 (crash).** A proof that passes the `tHat` check but carries a number of cross terms other than
`log2 n` makes the verifier panic. -/
theorem C73_verify_crash (C : Curve F G) (gens : Gens G) (p : RProof F G) (V : G) (pg : RGens G) (n : Nat)
    (t : Transcript) (hGH : gens.G.length = gens.H.length) (hn2 : 2 ≤ n) (hn : n ≤ gens.G.length)
    (hLR : p.ipp.capLs.length = p.ipp.capRs.length) (hy : (rchal C [V] p t).y ≠ 0)
    (hT : THatEq p V pg.g pg.h n (rchal C [V] p t))
    (h0 : (0 : F) ∉ (challenges C p.ipp.capLs p.ipp.capRs (rchal C [V] p t).rest).1)
    (hm : (n : Int) ≠ shl1 p.ipp.capLs.length) :
    rangeVerify C gens p V pg (n : Nat) t = .panic := by
  rw [(rangeVerify_step C gens p V pg n t hGH hn2 hn hy).2 hT]
  exact C72_fromRange_mismatch C _ _ _ _ _ _ _ hLR h0 (by simp [hn]; omega)

/-- **C73 (bit length).** Negative bit lengths, 0 and 1 make both sides panic; a length beyond the generators
is refused. -/
theorem C73_bit_length {C : Curve F G} {L : Nat} (hc : ScalarCodec C L) (hL1 : 1 ≤ L) (gens : Gens G)
    (pg : RGens G) (t : Transcript) (hGH : gens.G.length = gens.H.length) (n : Int) :
    (n > gens.G.length → (∀ v gamma rnd, rangeProve C gens v gamma n pg rnd t = .err) ∧
      ∀ p V, rangeVerify C gens p V pg n t = .err) ∧
    (n < 0 ∨ (n = 0 ∨ n = 1) ∧ n ≤ gens.G.length →
      (∀ v gamma rnd, C.big v ≤ 1 → rangeProve C gens v gamma n pg rnd t = .panic) ∧
      ∀ p V, rangeVerify C gens p V pg n t = .panic) := by
  refine ⟨fun h => ⟨fun v gamma rnd => ?_, fun p V => ?_⟩, fun h => ?_⟩
  · unfold rangeProve; rw [if_pos h]
  · unfold rangeVerify; rw [if_pos h]
  · rcases h with h | ⟨h, hle⟩
    · have hs : slice0 gens.G n = .panic := by unfold slice0; rw [if_neg (by omega)]
      refine ⟨fun v gamma rnd _ => ?_, fun p V => ?_⟩
      · unfold rangeProve; rw [if_neg (by omega), hs]; rfl
      · unfold rangeVerify; rw [if_neg (by omega), hs]; rfl
    · obtain ⟨m, rfl, hm⟩ : ∃ m : Nat, n = m ∧ m < 2 := by
        rcases h with rfl | rfl
        · exact ⟨0, rfl, by omega⟩
        · exact ⟨1, rfl, by omega⟩
      have hml : m ≤ gens.G.length := by exact_mod_cast hle
      have hkn : ∀ y : F, getkn y (m : Int) = .panic := by
        intro y; unfold getkn; rw [if_pos (by omega)]
      refine ⟨fun v gamma rnd hv => ?_, fun p V => ?_⟩
      · unfold rangeProve
        have : C.big v ≤ 2 ^ m := le_trans hv Nat.one_le_two_pow
        rw [if_neg (by omega), slice0_ok hml, Res.bind_ok, slice0_ok (hGH ▸ hml), Res.bind_ok, Int.toNat_natCast,
          if_neg (by omega), getaL_eq hc v (by omega), Res.bind_ok, get1n_ok, Res.bind_ok]
        unfold subPair
        rw [pair_ok (by simp), Res.bind_ok, sop_ok (by simp; omega), Res.bind_ok, sop_ok (by simp; omega),
          Res.bind_ok]
        dsimp only
        rw [sop_ok (by simp; omega), Res.bind_ok, sop_ok (by simp; omega), Res.bind_ok]
        simp only [calcyz_eq]
        rw [pair_ok (by simp), Res.bind_ok]
        rcases Nat.eq_zero_or_pos m with rfl | hpos
        · have : (get2n ((0 : Nat) : Int) : Res (List F)) = .panic := by
            unfold get2n; rw [if_pos (by omega)]
          rw [this]; rfl
        · rw [get2n_ok hpos, Res.bind_ok]
          unfold addPair
          rw [pair_ok (by simp), Res.bind_ok, hkn]; rfl
      · unfold rangeVerify
        rw [if_neg (by omega), slice0_ok hml, Res.bind_ok, slice0_ok (hGH ▸ hml), Res.bind_ok]
        simp only [calcyz_eq, calcx, Curve.ext]
        have : ∀ y z : F, deltayz y z (m : Int) = .panic := by
          intro y z
          unfold deltayz
          rw [get1n_ok, Res.bind_ok, hkn]; rfl
        rw [this]; rfl

theorem proveRec_pow2 (C : Curve F G) (u : G) (fuel : Nat) : ∀ (a b : List F) (g h Ls Rs : List G)
    (t : Transcript) (o), proveRec C u fuel a b g h Ls Rs t = .ok o → ∃ k, a.length = 2 ^ k := by
  induction fuel with
  | zero =>
    intro a b g h Ls Rs t o ho
    unfold proveRec at ho
    split_ifs at ho
    split at ho
    · exact ⟨0, rfl⟩
    · simp at ho
  | succ fuel ih =>
    intro a b g h Ls Rs t o ho
    unfold proveRec at ho
    split_ifs at ho with h1 h2 h3
    split at ho
    · exact ⟨0, rfl⟩
    · simp only at ho
      obtain ⟨⟨aLo, aHi⟩, ha, ho⟩ := Res.bind_eq_ok.1 ho
      simp only at ho
      obtain ⟨⟨bLo, bHi⟩, _, ho⟩ := Res.bind_eq_ok.1 ho
      simp only at ho
      obtain ⟨⟨gLo, gHi⟩, _, ho⟩ := Res.bind_eq_ok.1 ho
      simp only at ho
      obtain ⟨⟨hLo, hHi⟩, _, ho⟩ := Res.bind_eq_ok.1 ho
      simp only at ho
      obtain ⟨cL, _, ho⟩ := Res.bind_eq_ok.1 ho
      obtain ⟨cR, _, ho⟩ := Res.bind_eq_ok.1 ho
      obtain ⟨lga, _, ho⟩ := Res.bind_eq_ok.1 ho
      obtain ⟨lhb, _, ho⟩ := Res.bind_eq_ok.1 ho
      obtain ⟨rga, _, ho⟩ := Res.bind_eq_ok.1 ho
      obtain ⟨rhb, _, ho⟩ := Res.bind_eq_ok.1 ho
      obtain ⟨xInv, _, ho⟩ := Res.bind_eq_ok.1 ho
      obtain ⟨gP, _, ho⟩ := Res.bind_eq_ok.1 ho
      obtain ⟨hP, _, ho⟩ := Res.bind_eq_ok.1 ho
      obtain ⟨aP, haP, ho⟩ := Res.bind_eq_ok.1 ho
      obtain ⟨bP, _, ho⟩ := Res.bind_eq_ok.1 ho
      obtain ⟨k, hk⟩ := ih _ _ _ _ _ _ _ _ ho
      unfold split at ha
      split_ifs at ha with q1 q2
      obtain ⟨e1, e2⟩ := Prod.mk.inj (Res.ok.inj ha)
      unfold addPair at haP
      split_ifs at haP with q3
      have e3 := Res.ok.inj haP
      rw [Nat.and_one_is_mod] at q2
      rw [← e3, List.length_zipWith, length_mulScs, length_mulScs, ← e1, ← e2, List.length_take,
        List.length_drop, Nat.shiftRight_eq_div_pow] at hk
      refine ⟨k + 1, ?_⟩
      rw [pow_succ]
      omega

theorem mapM_length {α β : Type} {f : α → Res β} {l : List α} {o : List β} (h : l.mapM f = .ok o) :
    o.length = l.length := by
  induction l generalizing o with
  | nil =>
    have : o = [] := (Res.ok.inj h).symm
    simp [this]
  | cons a l ih =>
    rw [List.mapM_cons] at h
    obtain ⟨b, _, h⟩ := Res.bind_eq_ok.1 h
    obtain ⟨bs, h2, h⟩ := Res.bind_eq_ok.1 h
    have := Res.ok.inj h
    rw [← this]; simp [ih h2]

/-! ### curves whose inversion reports zero -/

theorem gethPrime_silent (C : Curve F G) (h : List G) (y : F) :
    (y ≠ 0 → gethPrime C h y = gethPrime C.silent h y) ∧
    (C.invErr = true → y = 0 → ∀ o, gethPrime C h y ≠ .ok o) := by
  constructor
  · intro hy
    unfold gethPrime
    rw [invert_ok C hy, silent_invert]
  · intro hi hy o
    have : C.invert y = .err := by unfold Curve.invert; rw [if_pos ⟨hy, hi⟩]
    unfold gethPrime
    rw [this]
    simp only
    split_ifs <;> nofun

/-- The inner product prover on `C` and on `C.silent`. -/
theorem rangeToIPP_silent (C : Curve F G) (g h : List G) (l r : List F) (u : G) (t t' : Transcript)
    (ipp : Ipp F G) (hs : rangeToIPP C.silent g h l r u t = .ok (ipp, t')) :
    (C.invErr = true → (0 : F) ∈ (challenges C ipp.capLs ipp.capRs t).1 → rangeToIPP C g h l r u t = .err) ∧
    ((0 : F) ∉ (challenges C ipp.capLs ipp.capRs t).1 → rangeToIPP C g h l r u t = .ok (ipp, t')) := by
  unfold rangeToIPP at hs ⊢
  obtain ⟨k, hk⟩ := proveRec_pow2 _ _ _ _ _ _ _ _ _ _ _ hs
  have hlen : l.length = r.length ∧ g.length = h.length ∧ l.length = g.length := by
    by_contra hne
    rw [show proveRec C.silent u l.length l r g h [] [] t = .err from ?_] at hs
    · exact nomatch hs
    · unfold proveRec
      by_cases h1 : l.length = r.length
      · by_cases h2 : g.length = h.length
        · by_cases h3 : l.length = g.length
          · exact absurd ⟨h1, h2, h3⟩ hne
          · rw [if_neg (by simp [h1]), if_neg (by simp [h2]), if_pos h3]
        · rw [if_neg (by simp [h1]), if_pos h2]
      · rw [if_pos h1]
  obtain ⟨e1, e2, e3⟩ := hlen
  obtain ⟨a0, b0, Ls, Rs, h1, h2, h3, h4, h5⟩ := proveRec_spec C u k l.length
    (by rw [hk]; exact Nat.lt_two_pow_self.le) l r g h [] [] t hk (by omega) (by omega) (by omega)
  rw [h1] at hs
  obtain ⟨e4, e5⟩ := Prod.mk.inj (Res.ok.inj hs)
  subst e4 e5
  simp only [List.nil_append]
  exact ⟨h4, fun h0 => by simpa using (h5 h0).1⟩

/-- The prover on `C` and on `C.silent`: the same proof if the run draws no zero challenge, no proof if it
draws one and inversion reports it. -/
theorem rangeProve_silent (C : Curve F G) (gens : Gens G) (v gamma : F) (n : Int) (pg : RGens G) (rnd : Rnd F)
    (t : Transcript) (p : RProof F G) (t' : Transcript)
    (h : rangeProve C.silent gens v gamma n pg rnd t = .ok (p, t')) :
    ((rchal C [gamma • pg.h + v • pg.g] p t).y ≠ 0 →
      (0 : F) ∉ (challenges C p.ipp.capLs p.ipp.capRs (rchal C [gamma • pg.h + v • pg.g] p t).rest).1 →
      rangeProve C gens v gamma n pg rnd t = .ok (p, t')) ∧
    (C.invErr = true → (rchal C [gamma • pg.h + v • pg.g] p t).y = 0 →
      ∀ o, rangeProve C gens v gamma n pg rnd t ≠ .ok o) ∧
    (C.invErr = true → (rchal C [gamma • pg.h + v • pg.g] p t).y ≠ 0 →
      (0 : F) ∈ (challenges C p.ipp.capLs p.ipp.capRs (rchal C [gamma • pg.h + v • pg.g] p t).rest).1 →
      ∀ o, rangeProve C gens v gamma n pg rnd t ≠ .ok o) := by
  unfold rangeProve at h ⊢
  have h1 : ¬ n > gens.G.length := by
    intro hgt
    rw [if_pos hgt] at h
    exact nomatch h
  rw [if_neg h1] at h ⊢
  obtain ⟨pG, hpG, h⟩ := Res.bind_eq_ok.1 h
  obtain ⟨pH, hpH, h⟩ := Res.bind_eq_ok.1 h
  have h2 : ¬ C.big v > 2 ^ n.toNat := by
    intro hgt
    have hgt : C.silent.big v > 2 ^ n.toNat := hgt
    rw [if_pos hgt] at h
    exact nomatch h
  have h2' : ¬ C.silent.big v > 2 ^ n.toNat := h2
  rw [if_neg h2'] at h
  rw [hpG, Res.bind_ok, hpH, Res.bind_ok, if_neg h2]
  obtain ⟨aL, haL, h⟩ := Res.bind_eq_ok.1 h
  have haL : getaL C v n.toNat = .ok aL := haL
  obtain ⟨onen, k1, h⟩ := Res.bind_eq_ok.1 h
  obtain ⟨aR, k2, h⟩ := Res.bind_eq_ok.1 h
  obtain ⟨_, k3, h⟩ := Res.bind_eq_ok.1 h
  obtain ⟨_, k4, h⟩ := Res.bind_eq_ok.1 h
  obtain ⟨_, k5, h⟩ := Res.bind_eq_ok.1 h
  obtain ⟨_, k6, h⟩ := Res.bind_eq_ok.1 h
  rw [haL, Res.bind_ok, k1, Res.bind_ok, k2, Res.bind_ok, k3, Res.bind_ok, k4, Res.bind_ok]
  dsimp only at h ⊢
  rw [k5, Res.bind_ok, k6, Res.bind_ok]
  simp only [calcyz_eq, getcapV] at h ⊢
  obtain ⟨cl, k7, h⟩ := Res.bind_eq_ok.1 h
  obtain ⟨_, k8, h⟩ := Res.bind_eq_ok.1 h
  obtain ⟨_, k9, h⟩ := Res.bind_eq_ok.1 h
  obtain ⟨_, k10, h⟩ := Res.bind_eq_ok.1 h
  obtain ⟨_, k11, h⟩ := Res.bind_eq_ok.1 h
  obtain ⟨_, k12, h⟩ := Res.bind_eq_ok.1 h
  obtain ⟨_, k13, h⟩ := Res.bind_eq_ok.1 h
  obtain ⟨_, k14, h⟩ := Res.bind_eq_ok.1 h
  obtain ⟨_, k15, h⟩ := Res.bind_eq_ok.1 h
  obtain ⟨_, k16, h⟩ := Res.bind_eq_ok.1 h
  erw [k7, Res.bind_ok, k8, Res.bind_ok, k9, Res.bind_ok, k10, Res.bind_ok, k11, Res.bind_ok, k12, Res.bind_ok, k13,
    Res.bind_ok, k14, Res.bind_ok, k15, Res.bind_ok, k16, Res.bind_ok]
  simp only [calcx, Curve.ext] at h ⊢
  obtain ⟨l, k17, h⟩ := Res.bind_eq_ok.1 h
  obtain ⟨_, k18, h⟩ := Res.bind_eq_ok.1 h
  obtain ⟨_, k19, h⟩ := Res.bind_eq_ok.1 h
  obtain ⟨hP, k20, h⟩ := Res.bind_eq_ok.1 h
  obtain ⟨_, k21, h⟩ := Res.bind_eq_ok.1 h
  obtain ⟨⟨ipp, t''⟩, k22, h⟩ := Res.bind_eq_ok.1 h
  erw [k17, Res.bind_ok, k18, Res.bind_ok, k19, Res.bind_ok]
  obtain ⟨e1, e2⟩ := Prod.mk.inj (Res.ok.inj h)
  subst e1 e2
  have q := rangeToIPP_silent C _ _ _ _ _ _ _ _ k22
  refine ⟨fun hy h0 => ?_, fun hi hy o ho => ?_, fun hi hy h0 o => ?_⟩
  · have g1 := ((gethPrime_silent C pH _).1 hy).trans k20
    erw [g1, Res.bind_ok, k21, Res.bind_ok, q.2 h0, Res.bind_ok]
    rfl
  · obtain ⟨hP', k23, _⟩ := Res.bind_eq_ok.1 ho
    exact (gethPrime_silent C pH _).2 hi hy _ k23
  · have g1 := ((gethPrime_silent C pH _).1 hy).trans k20
    erw [g1, Res.bind_ok, k21, Res.bind_ok, q.1 hi h0]
    nofun

/-- On a run without zero challenges the verifier does not depend on the kind of inversion. -/
theorem rangeVerify_silent (C : Curve F G) (gens : Gens G) (p : RProof F G) (V : G) (pg : RGens G) (k : Nat)
    (t : Transcript) (hGH : gens.G.length = gens.H.length) (hk1 : 1 ≤ k) (hk : k < 63)
    (hn : 2 ^ k ≤ gens.G.length) (hLs : p.ipp.capLs.length = k) (hRs : p.ipp.capRs.length = k)
    (hy : (rchal C [V] p t).y ≠ 0)
    (h0 : (0 : F) ∉ (challenges C p.ipp.capLs p.ipp.capRs (rchal C [V] p t).rest).1) :
    rangeVerify C.silent gens p V pg (2 ^ k : Nat) t = rangeVerify C gens p V pg (2 ^ k : Nat) t := by
  have hn2 : 2 ≤ 2 ^ k := by
    have := Nat.pow_le_pow_right (n := 2) (by omega) hk1
    omega
  obtain ⟨s1, s2⟩ := rangeVerify_step C gens p V pg (2 ^ k) t hGH hn2 hn hy
  obtain ⟨q1, q2⟩ := rangeVerify_step C.silent gens p V pg (2 ^ k) t hGH hn2 hn hy
  by_cases hT : THatEq p V pg.g pg.h (2 ^ k) (rchal C [V] p t)
  · rw [s2 hT, verifyFromRange_eq C _ _ _ _ _ _ _ (hLs.trans hRs.symm) (by omega)
      (by simp [hLs]; omega) (by simp [hLs]; omega) h0, q2 hT]
    refine (verifyFromRange_eq C.silent _ _ _ _ _ _ _ (hLs.trans hRs.symm) (by omega)
      (by simp [hLs]; omega) (by simp [hLs]; omega) (by rw [silent_challenges]; exact h0)).trans ?_
    simp only [silent_challenges]
    rfl
  · rw [s1 hT, q1 hT]

/-- **C73 (honest run).** For a power-of-two bit length `n = 2^k ≥ 2` that the generators and the scalar
encoding cover, and a value that passes the check `v ≤ 2^n`: if none of the challenges that the run draws is
zero, `Prove` returns a proof on which `Verify` answers without an error, and the answer is `true` exactly when
`(B mod 2^n - v)·z²·w·u` is the identity, where `B` is the encoding of `v` read as a little-endian number; if
one is zero and inversion reports it, `Prove` returns no proof.  (The run on the curve `C.silent`, whose
inversion does not report zero, always ends, and names the challenges.) -/
theorem C73_honest {C : Curve F G} {L : Nat} (hc : ScalarCodec C L) (gens : Gens G) (v gamma : F) (k : Nat)
    (pg : RGens G) (rnd : Rnd F) (t : Transcript)
    (hGH : gens.G.length = gens.H.length) (hk1 : 1 ≤ k) (hk : k < 63) (hn : 2 ^ k ≤ gens.G.length)
    (hL : 2 ^ k ≤ 8 * L) (hv : C.big v ≤ 2 ^ 2 ^ k) :
    ∃ p t', rangeProve C.silent gens v gamma (2 ^ k : Nat) pg rnd t = .ok (p, t') ∧
      (C.invErr = true → (rchal C [gamma • pg.h + v • pg.g] p t).y = 0 ∨
        (0 : F) ∈ (challenges C p.ipp.capLs p.ipp.capRs (rchal C [gamma • pg.h + v • pg.g] p t).rest).1 →
        ∀ o, rangeProve C gens v gamma (2 ^ k : Nat) pg rnd t ≠ .ok o) ∧
      ((rchal C [gamma • pg.h + v • pg.g] p t).y ≠ 0 →
        (0 : F) ∉ (challenges C p.ipp.capLs p.ipp.capRs (rchal C [gamma • pg.h + v • pg.g] p t).rest).1 →
        rangeProve C gens v gamma (2 ^ k : Nat) pg rnd t = .ok (p, t') ∧
        rangeVerify C gens p (gamma • pg.h + v • pg.g) pg (2 ^ k : Nat) t =
          .ok (decide ((((leToNat (C.bytes v) % 2 ^ 2 ^ k : Nat) - v) *
            (rchal C [gamma • pg.h + v • pg.g] p t).z ^ 2 *
            (rchal C [gamma • pg.h + v • pg.g] p t).w) • pg.u = 0), t')) := by
  obtain ⟨p, t', h1, h2, h3, h4⟩ := range_quiet (C := C.silent) (L := L) ⟨hc.len, hc.rt⟩ rfl gens v gamma k pg rnd t
    hGH hk1 hk hn hL hv
  obtain ⟨q1, q2, q3⟩ := rangeProve_silent C gens v gamma _ pg rnd t p t' h1
  refine ⟨p, t', h1, fun hi hb => ?_, fun hy h0 => ⟨q1 hy h0, ?_⟩⟩
  · by_cases hy : (rchal C [gamma • pg.h + v • pg.g] p t).y = 0
    · exact q2 hi hy
    · exact q3 hi hy (hb.resolve_left hy)
  · rw [← rangeVerify_silent C gens p _ pg k t hGH hk1 hk hn h2 h3 hy h0]
    exact h4 hy (by rw [silent_challenges]; exact h0)

/-- **C73 (domain).** `Prove` returns a proof only for a bit length that is a power of two, at least two, and
covered by the generators and by the scalar encoding, and only for a value up to and including `2^n`. -/
theorem C73_domain {C : Curve F G} {L : Nat} (hc : ScalarCodec C L) (gens : Gens G) (v gamma : F) (n : Int)
    (pg : RGens G) (rnd : Rnd F) (t : Transcript) (o) (h : rangeProve C gens v gamma n pg rnd t = .ok o) :
    ∃ k, 1 ≤ k ∧ n = (2 ^ k : Nat) ∧ 2 ^ k ≤ gens.G.length ∧ 2 ^ k ≤ 8 * L ∧ C.big v ≤ 2 ^ 2 ^ k := by
  unfold rangeProve at h
  have h1 : ¬ n > gens.G.length := by
    intro hgt
    rw [if_pos hgt] at h
    exact nomatch h
  rw [if_neg h1] at h
  obtain ⟨pG, hpG, h⟩ := Res.bind_eq_ok.1 h
  obtain ⟨pH, _, h⟩ := Res.bind_eq_ok.1 h
  have h2 : ¬ C.big v > 2 ^ n.toNat := by
    intro hgt
    rw [if_pos hgt] at h
    exact nomatch h
  rw [if_neg h2] at h
  have hn0 : 0 ≤ n := by
    by_contra hneg
    unfold slice0 at hpG
    rw [if_neg (by omega)] at hpG
    exact nomatch hpG
  obtain ⟨m, rfl⟩ : ∃ m : Nat, n = m := ⟨n.toNat, by omega⟩
  rw [Int.toNat_natCast] at h h2
  obtain ⟨aL, haL, h⟩ := Res.bind_eq_ok.1 h
  have hm8 : m ≤ 8 * L := by
    by_contra hlt
    rw [getaL_panic hc v (by omega)] at haL
    exact nomatch haL
  have laL : aL.length = m := by
    rw [getaL_eq hc v hm8] at haL
    rw [← Res.ok.inj haL]; simp
  obtain ⟨onen, hon, h⟩ := Res.bind_eq_ok.1 h
  rw [get1n_ok] at hon
  obtain ⟨aR, _, h⟩ := Res.bind_eq_ok.1 h
  obtain ⟨_, _, h⟩ := Res.bind_eq_ok.1 h
  obtain ⟨_, _, h⟩ := Res.bind_eq_ok.1 h
  obtain ⟨_, _, h⟩ := Res.bind_eq_ok.1 h
  obtain ⟨_, _, h⟩ := Res.bind_eq_ok.1 h
  simp only [calcyz_eq] at h
  obtain ⟨cl, hcl, h⟩ := Res.bind_eq_ok.1 h
  obtain ⟨_, _, h⟩ := Res.bind_eq_ok.1 h
  obtain ⟨_, _, h⟩ := Res.bind_eq_ok.1 h
  obtain ⟨_, hyn, h⟩ := Res.bind_eq_ok.1 h
  have hm2 : 2 ≤ m := by
    by_contra hlt
    unfold getkn at hyn
    rw [if_pos (by omega)] at hyn
    exact nomatch hyn
  obtain ⟨_, _, h⟩ := Res.bind_eq_ok.1 h
  obtain ⟨_, _, h⟩ := Res.bind_eq_ok.1 h
  obtain ⟨_, _, h⟩ := Res.bind_eq_ok.1 h
  obtain ⟨_, _, h⟩ := Res.bind_eq_ok.1 h
  obtain ⟨_, _, h⟩ := Res.bind_eq_ok.1 h
  obtain ⟨_, _, h⟩ := Res.bind_eq_ok.1 h
  simp only [calcx, Curve.ext] at h
  obtain ⟨l, hl, h⟩ := Res.bind_eq_ok.1 h
  obtain ⟨_, _, h⟩ := Res.bind_eq_ok.1 h
  obtain ⟨_, _, h⟩ := Res.bind_eq_ok.1 h
  obtain ⟨_, _, h⟩ := Res.bind_eq_ok.1 h
  obtain ⟨_, _, h⟩ := Res.bind_eq_ok.1 h
  obtain ⟨o', hipp, _⟩ := Res.bind_eq_ok.1 h
  obtain ⟨k, hk⟩ := proveRec_pow2 C _ _ _ _ _ _ _ _ _ _ hipp
  have lcl : cl.length = m := by
    unfold subPair at hcl
    split_ifs at hcl with q
    rw [← Res.ok.inj hcl, List.length_zipWith, length_mulScs, ← Res.ok.inj hon, laL]
    simp
  have ll : l.length = m := by
    unfold addPair at hl
    split_ifs at hl with q
    rw [← Res.ok.inj hl, List.length_zipWith, length_mulScs, lcl]
    simp
  rw [ll] at hk
  subst hk
  refine ⟨k, ?_, rfl, by exact_mod_cast not_lt.1 h1, hm8, by omega⟩
  rcases Nat.eq_zero_or_pos k with rfl | h
  · simp at hm2
  · exact h

end general

/-! ### which values verify on which curve -/

section curves
variable {q : Nat} [Fact q.Prime] {G : Type} [AddCommGroup G] [Module (ZMod q) G] [DecidableEq G]

/-- The scalars of ed25519 (ed25519_curve.go:233-256) and Pallas (pallas_curve.go:399-415): integers below the
group order `q`, encoded little-endian. -/
structure LittleEndian (C : Curve (ZMod q) G) (L : Nat) : Prop where
  bytes : ∀ x, C.bytes x = natToLE L x.val
  rt : ∀ x, C.setBytes (C.bytes x) = some x
  big : ∀ x, C.big x = x.val
  order : q ≤ 256 ^ L

/-- The scalars of K-256 (k256_curve.go:292-310), P-256, BLS12-381 and BLS12-377: the same, big-endian. -/
structure BigEndian (C : Curve (ZMod q) G) (L : Nat) : Prop where
  bytes : ∀ x, C.bytes x = natToBEfix L x.val
  rt : ∀ x, C.setBytes (C.bytes x) = some x
  big : ∀ x, C.big x = x.val
  order : q ≤ 256 ^ L

theorem LittleEndian.codec {C : Curve (ZMod q) G} {L : Nat} (h : LittleEndian C L) : ScalarCodec C L :=
  ⟨fun x => by rw [h.bytes, length_natToLE], h.rt⟩

theorem BigEndian.codec {C : Curve (ZMod q) G} {L : Nat} (h : BigEndian C L) : ScalarCodec C L :=
  ⟨fun x => by rw [h.bytes, length_natToBEfix], h.rt⟩

/-- the conditions on bit length and generators under which honest proofs exist -/
structure Sized (gens : Gens G) (L k : Nat) : Prop where
  eq : gens.G.length = gens.H.length
  one : 1 ≤ k
  lt : k < 63
  gens : 2 ^ k ≤ gens.G.length
  bytes : 2 ^ k ≤ 8 * L

/-- no challenge of the proof is zero -/
def NonZero (C : Curve (ZMod q) G) (V : G) (p : RProof (ZMod q) G) (t : Transcript) : Prop :=
  (rchal C [V] p t).y ≠ 0 ∧ (rchal C [V] p t).z ≠ 0 ∧ (rchal C [V] p t).w ≠ 0 ∧
    (0 : ZMod q) ∉ (challenges C p.ipp.capLs p.ipp.capRs (rchal C [V] p t).rest).1

/-- What holds of an honest run: the prover ends with a proof `p` for which `R` holds of the verifier's answer,
provided none of the challenges drawn is zero.  The challenges are those of the run on `C.silent`, which always
ends; the conclusions are about `C` itself. -/
def Honest (C : Curve (ZMod q) G) (gens : Gens G) (v gamma : ZMod q) (n : Nat) (pg : RGens G)
    (rnd : Rnd (ZMod q)) (t : Transcript) (answer : Bool) : Prop :=
  ∃ p t', rangeProve C.silent gens v gamma (n : Nat) pg rnd t = .ok (p, t') ∧
    (NonZero C (gamma • pg.h + v • pg.g) p t →
      rangeProve C gens v gamma (n : Nat) pg rnd t = .ok (p, t') ∧
      rangeVerify C gens p (gamma • pg.h + v • pg.g) pg (n : Nat) t = .ok (answer, t'))

/-- **C73 (completeness, little-endian curves).** Every value in `[0, 2^n)` gets a proof, and `Verify` accepts
it for the commitment `g^v h^gamma`. -/
theorem C73_completeness {C : Curve (ZMod q) G} {L : Nat} (hc : LittleEndian C L) (gens : Gens G)
    (v gamma : ZMod q) (k : Nat) (pg : RGens G) (rnd : Rnd (ZMod q)) (t : Transcript) (hs : Sized gens L k)
    (hv : v.val < 2 ^ 2 ^ k) : Honest C gens v gamma (2 ^ k) pg rnd t true := by
  have : NeZero q := ⟨(Fact.out : q.Prime).ne_zero⟩
  obtain ⟨p, t', h1, _, h2⟩ := C73_honest hc.codec gens v gamma k pg rnd t hs.eq hs.one hs.lt hs.gens hs.bytes
    (by rw [hc.big]; omega)
  refine ⟨p, t', h1, fun hz => ?_⟩
  obtain ⟨h3, h4⟩ := h2 hz.1 hz.2.2.2
  refine ⟨h3, ?_⟩
  rw [h4, hc.bytes, leToNat_natToLE,
    Nat.mod_eq_of_lt (lt_of_lt_of_le (ZMod.val_lt v) hc.order), Nat.mod_eq_of_lt hv, ZMod.natCast_zmod_val,
    sub_self, zero_mul, zero_mul, zero_smul]
  simp

theorem smul_ne {c : ZMod q} {u : G} (hc : c ≠ 0) (hu : u ≠ 0) : c • u ≠ 0 := by
  intro h
  apply hu
  have := congrArg (c⁻¹ • ·) h
  simpa [smul_smul, inv_mul_cancel₀ hc] using this

/-- **C73 (upper bound).** The documented range `[0, 2^n]` is not what is provable: for `v = 2^n` `Prove`
returns a proof that `Verify` rejects; larger values are refused. -/
theorem C73_upper_bound {C : Curve (ZMod q) G} {L : Nat} (hc : LittleEndian C L) (gens : Gens G)
    (v gamma : ZMod q) (k : Nat) (pg : RGens G) (rnd : Rnd (ZMod q)) (t : Transcript) (hs : Sized gens L k) :
    (v.val = 2 ^ 2 ^ k → pg.u ≠ 0 → Honest C gens v gamma (2 ^ k) pg rnd t false) ∧
    (2 ^ 2 ^ k < v.val → rangeProve C gens v gamma (2 ^ k : Nat) pg rnd t = .err) := by
  have : NeZero q := ⟨(Fact.out : q.Prime).ne_zero⟩
  constructor
  · intro hv hu
    obtain ⟨p, t', h1, _, h2⟩ := C73_honest hc.codec gens v gamma k pg rnd t hs.eq hs.one hs.lt hs.gens hs.bytes
      (by rw [hc.big]; omega)
    refine ⟨p, t', h1, fun hz => ?_⟩
    obtain ⟨h3, h4⟩ := h2 hz.1 hz.2.2.2
    refine ⟨h3, ?_⟩
    rw [h4, hc.bytes, leToNat_natToLE,
      Nat.mod_eq_of_lt (lt_of_lt_of_le (ZMod.val_lt v) hc.order), hv, Nat.mod_self, Nat.cast_zero, zero_sub]
    have hv0 : v ≠ 0 := by
      rintro rfl
      rw [ZMod.val_zero] at hv
      exact absurd hv.symm (by positivity)
    rw [decide_eq_false (smul_ne (mul_ne_zero (mul_ne_zero (neg_ne_zero.2 hv0) (pow_ne_zero 2 hz.2.1))
      hz.2.2.1) hu)]
  · intro hv
    unfold rangeProve
    rw [if_neg (by exact_mod_cast not_lt.2 hs.gens), slice0_ok hs.gens, Res.bind_ok,
      slice0_ok (hs.eq ▸ hs.gens), Res.bind_ok, Int.toNat_natCast, if_pos (by rw [hc.big]; exact hv)]

/-- the low 128 bits of a 32 byte big-endian number, read as little-endian, are zero for a small number -/
theorem be_low_bits {x n : Nat} (hn : n ≤ 128) (hx : x < 2 ^ n) : leToNat (natToBEfix 32 x) % 2 ^ n = 0 := by
  have hsmall : x < 256 ^ 16 := lt_of_lt_of_le hx (by
    calc 2 ^ n ≤ 2 ^ 128 := Nat.pow_le_pow_right (by omega) hn
      _ = 256 ^ 16 := by decide +kernel)
  have hsplit : natToBEfix 32 x = List.replicate 16 0 ++ natToBEfix 16 x := by
    apply beToNat_inj
    · simp
    · rw [beToNat_natToBEfix, beToNat_append, beToNat_natToBEfix, Nat.mod_eq_of_lt hsmall,
        Nat.mod_eq_of_lt (lt_trans hsmall (by decide +kernel))]
      have : beToNat (List.replicate 16 (0 : UInt8)) = 0 := by decide +kernel
      rw [this]; simp
  have : leToNat (List.replicate 16 (0 : UInt8) ++ natToBEfix 16 x) = 2 ^ 128 * leToNat (natToBEfix 16 x) := by
    rw [← beToNat_reverse, List.reverse_append, beToNat_append, List.reverse_replicate]
    have e0 : beToNat (List.replicate 16 (0 : UInt8)) = 0 := by decide +kernel
    have e1 : (256 : Nat) ^ 16 = 2 ^ 128 := by decide +kernel
    rw [e0, List.length_replicate, e1, beToNat_reverse, Nat.add_zero, Nat.mul_comm]
  rw [hsplit, this]
  apply Nat.mod_eq_zero_of_dvd
  exact Dvd.dvd.mul_right (pow_dvd_pow 2 hn) _

/-- **C73 (big-endian curves).** On the curves with big-endian scalars the bits are read from the wrong end:
for a 32 byte encoding and `n ≤ 128` no proof of a non-zero value in range ever verifies. -/
theorem C73_big_endian_rejected {C : Curve (ZMod q) G} (hc : BigEndian C 32) (gens : Gens G)
    (v gamma : ZMod q) (k : Nat) (pg : RGens G) (rnd : Rnd (ZMod q)) (t : Transcript) (hs : Sized gens 32 k)
    (hk : k ≤ 7) (hv0 : v ≠ 0) (hv : v.val < 2 ^ 2 ^ k) (hu : pg.u ≠ 0) :
    Honest C gens v gamma (2 ^ k) pg rnd t false := by
  have : NeZero q := ⟨(Fact.out : q.Prime).ne_zero⟩
  obtain ⟨p, t', h1, _, h2⟩ := C73_honest hc.codec gens v gamma k pg rnd t hs.eq hs.one hs.lt hs.gens hs.bytes
    (by rw [hc.big]; omega)
  refine ⟨p, t', h1, fun hz => ?_⟩
  obtain ⟨h3, h4⟩ := h2 hz.1 hz.2.2.2
  refine ⟨h3, ?_⟩
  have hpk : (2 : Nat) ^ k ≤ 128 := Nat.pow_le_pow_right (n := 2) (by omega) hk
  have hB : leToNat (C.bytes v) % 2 ^ 2 ^ k = 0 := by
    rw [hc.bytes]
    exact be_low_bits hpk hv
  rw [h4, hB, Nat.cast_zero, zero_sub,
    decide_eq_false (smul_ne (mul_ne_zero (mul_ne_zero (neg_ne_zero.2 hv0) (pow_ne_zero 2 hz.2.1))
      hz.2.2.1) hu)]

end curves

end Verif.Bulletproof
