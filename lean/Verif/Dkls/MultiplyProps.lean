import Verif.Dkls.Multiply
import Verif.OT.KosProps
import Verif.Base.Tactics
import Verif.Base.Bytes
import Mathlib.Algebra.BigOperators.Intervals
import Mathlib.Algebra.BigOperators.Ring.Finset

/-! # Property C27: OT based two-party multiplication -/

set_option linter.unusedSectionVars false

namespace Verif.Dkls
open Verif Verif.OT Verif.Bytes
open Verif.OT.Kos (vbit Decodable nablaOf L_eq Kappa_eq bitAt_eq ofOption_ok)

/-! ### helpers -/

theorem foldlM_sum_iff {F : Type} [AddCommMonoid F] (f : F → Nat → Res F) (c : Nat → Prop) (v : Nat → F) (n : Nat)
    (h : ∀ j < n, ∀ a x, f a j = .ok x ↔ c j ∧ x = a + v j) (a x : F) :
    (List.range n).foldlM f a = .ok x ↔ (∀ j < n, c j) ∧ x = a + ∑ j ∈ Finset.range n, v j := by
  induction n generalizing x with
  | zero => simp [eq_comm]
  | succ n ih =>
    rw [List.range_succ, List.foldlM_append, Res.bind_eq_ok, Finset.sum_range_succ]
    constructor
    · rintro ⟨y, h1, h2⟩
      obtain ⟨hc, rfl⟩ := (ih (fun j hj => h j (by omega)) y).1 h1
      rw [List.foldlM_cons, Res.bind_eq_ok] at h2
      obtain ⟨z, h2, h3⟩ := h2
      obtain ⟨h4, rfl⟩ := (h n (by omega) _ _).1 h2
      cases h3
      refine ⟨fun j hj => ?_, by rw [add_assoc]⟩
      rcases Nat.lt_succ_iff_lt_or_eq.1 hj with h | rfl
      · exact hc j h
      · exact h4
    · rintro ⟨hc, rfl⟩
      refine ⟨_, (ih (fun j hj => h j (by omega)) _).2 ⟨fun j hj => hc j (by omega), rfl⟩, ?_⟩
      rw [List.foldlM_cons, Res.bind_eq_ok]
      exact ⟨_, (h n (by omega) _ _).2 ⟨hc n (by omega), rfl⟩, by rw [add_assoc]; rfl⟩

theorem foldlM_inv {α : Type} (f : α → Nat → Res α) (P : Nat → α → Prop) (n : Nat) (a : α) (h0 : P 0 a)
    (hs : ∀ i < n, ∀ x, P i x → ∃ y, f x i = .ok y ∧ P (i + 1) y) :
    ∃ y, (List.range n).foldlM f a = .ok y ∧ P n y := by
  induction n with
  | zero => exact ⟨a, rfl, h0⟩
  | succ n ih =>
    obtain ⟨y, h1, h2⟩ := ih fun i hi => hs i (by omega)
    obtain ⟨z, h3, h4⟩ := hs n (by omega) y h2
    refine ⟨z, ?_, h4⟩
    rw [List.range_succ, List.foldlM_append, h1, Res.bind_ok, List.foldlM_cons, h3]
    rfl

theorem byte_sum (b : UInt8) : (∑ r ∈ Finset.range 8, if b.toNat.testBit r then 2 ^ r else 0) = b.toNat := by
  have : ∀ n : Fin 256, (∑ r ∈ Finset.range 8, if n.val.testBit r then 2 ^ r else 0) = n.val := by decide +kernel
  exact this ⟨b.toNat, b.toNat_lt⟩

/-- the number whose bits are `vbit v` -/
theorem bits_sum (v : Nat → UInt8) (n : Nat) :
    (∑ j ∈ Finset.range (8 * n), if vbit v j then 2 ^ j else 0) = ∑ i ∈ Finset.range n, (v i).toNat * 256 ^ i := by
  induction n with
  | zero => rfl
  | succ n ih =>
    rw [Nat.mul_succ, Finset.sum_range_add, ih, Finset.sum_range_succ _ n, ← byte_sum (v n), Finset.sum_mul]
    congr 1
    refine Finset.sum_congr rfl fun r hr => ?_
    have hr := Finset.mem_range.1 hr
    unfold vbit
    rw [show (8 * n + r) / 8 = n by omega, show (8 * n + r) % 8 = r by omega]
    have : (256 : Nat) ^ n = 2 ^ (8 * n) := by rw [pow_mul]; norm_num
    split
    · rw [this, ← pow_add, add_comm]
    · simp

theorem leToNat_sum (l : List UInt8) (n : Nat) (h : l.length = n) :
    leToNat l = ∑ i ∈ Finset.range n, (l.getD i 0).toNat * 256 ^ i := by
  induction l generalizing n with
  | nil => subst h; rfl
  | cons b l ih =>
    subst h
    rw [List.length_cons, Finset.sum_range_succ']
    simp only [List.getD_cons_succ, List.getD_cons_zero, pow_zero, mul_one]
    show b.toNat + 256 * leToNat l = _
    rw [ih _ rfl, Finset.mul_sum, add_comm]
    congr 1
    refine Finset.sum_congr rfl fun i _ => ?_
    rw [pow_succ]; ring

section
variable {F G : Type} [Field F] [DecidableEq F] [AddCommGroup G] [Module F G]

/-- The scalar encoding is 32 bytes, big-endian (all curves of the package used with DKLs: K256, P256). -/
structure BeRep (sc : Sharing.Codec F) : Prop where
  len : ∀ x, (sc.toBytes x).length = 32
  val : ∀ x, ((beToNat (sc.toBytes x) : Nat) : F) = x
  zero : sc.toBytes 0 = List.replicate 32 0

theorem toBytes_inj (sc : Sharing.Codec F) {x y : F} (h : sc.toBytes x = sc.toBytes y) : x = y := by
  have := sc.rt x
  rw [h, sc.rt] at this
  exact (Option.some.inj this).symm

/-! ### specification: the gadget vector -/

/-- `g` is a gadget vector: 672 scalars, the first 256 of them the powers of two -/
structure IsGadget (g : List F) : Prop where
  len : g.length = 672
  low : ∀ j < 256, g.getD j 0 = 2 ^ j

/-- the scalar a 672-bit choice vector stands for -/
def encoded (g : List F) (v : Nat → UInt8) : F := ∑ j ∈ Finset.range 672, if vbit v j then g.getD j 0 else 0

theorem gadget_ok (E : Env F G) (g : List F) (h : generateGadgetVector E = .ok g) : IsGadget g := by
  unfold generateGadgetVector at h
  obtain ⟨hi, h1, h2⟩ := Res.bind_eq_ok.1 h
  obtain ⟨hl, -⟩ := mapM_range_eq_ok h1
  cases h2
  rw [L_eq, Kappa_eq] at hl
  constructor
  · rw [List.length_append, List.length_map, List.length_range, hl, Kappa_eq]
  · intro j hj
    rw [List.getD_eq_getElem?_getD, List.getElem?_append_left (by simpa [Kappa_eq] using hj), List.getElem?_map,
      List.getElem?_range (by simpa [Kappa_eq] using hj)]
    simp

theorem getD_some {α : Type} {l : List α} {j : Nat} {x d : α} (h : l[j]? = some x) : l.getD j d = x := by
  rw [List.getD_eq_getElem?_getD, h]; rfl

theorem idx_getD {α : Type} {l : List α} {j : Nat} (d : α) (h : j < l.length) : idx l j = .ok (l.getD j d) := by
  rw [idx_eq_ok, List.getD_eq_getElem?_getD, List.getElem?_eq_getElem h]; rfl

/-- `encode` succeeds and returns a bit vector that stands for `β`. -/
theorem encode_ok (E : Env F G) (hbe : BeRep E.sc) (g : List F) (hg : IsGadget g) (rnd : Nat → UInt8) (beta : F) :
    ∃ v, encode E g rnd beta = .ok v ∧ encoded g v = beta := by
  set gam : Nat → UInt8 := fun i => if i < 32 then 0 else rnd (i - 32) with hgam
  have hfold := foldlM_inv (fun acc i => encodeStep E g rnd acc (Kos.Kappa + i))
    (fun i bytes => ∃ x, bytes = E.sc.toBytes x ∧
      x = beta - ∑ t ∈ Finset.range i, if vbit gam (256 + t) then g.getD (256 + t) 0 else 0)
    416 (E.sc.toBytes beta) ⟨beta, rfl, by simp⟩ (by
      rintro i hi _ ⟨x, rfl, rfl⟩
      refine ⟨_, ?_, _, rfl, rfl⟩
      unfold encodeStep
      rw [E.sc.rt, show Res.ofOption (some _) = Res.ok _ from rfl, Res.bind_ok, Kappa_eq,
        idx_getD 0 (by rw [hg.len]; omega), Res.bind_ok, bitAt_eq, Finset.sum_range_succ]
      unfold ctSel
      cases hb : vbit gam (256 + i)
      · simp
      · simp [sub_sub])
  obtain ⟨bytes, h1, x, rfl, hx⟩ := hfold
  refine ⟨_, by unfold encode; rw [show Kos.L - Kos.Kappa = 416 from rfl, h1, Res.bind_ok], ?_⟩
  set v : Nat → UInt8 := fun i => if i < 32 then (E.sc.toBytes x).reverse.getD i 0 else rnd (i - 32) with hv
  have lo : (∑ j ∈ Finset.range 256, if vbit v j then g.getD j 0 else 0) = x := by
    have e := bits_sum v 32
    have e2 : (∑ i ∈ Finset.range 32, (v i).toNat * 256 ^ i) = beToNat (E.sc.toBytes x) := by
      rw [← leToNat_reverse, leToNat_sum _ 32 (by rw [List.length_reverse, hbe.len])]
      refine Finset.sum_congr rfl fun i hi => ?_
      rw [hv]
      simp only [if_pos (Finset.mem_range.1 hi)]
    rw [e2] at e
    have e3 := hbe.val x
    rw [← e, Nat.cast_sum] at e3
    rw [← e3]
    refine Finset.sum_congr rfl fun j hj => ?_
    rw [hg.low j (Finset.mem_range.1 hj)]
    split <;> simp
  unfold encoded
  rw [show (672 : Nat) = 256 + 416 from rfl, Finset.sum_range_add, lo]
  have hi : (∑ t ∈ Finset.range 416, if vbit v (256 + t) then g.getD (256 + t) 0 else 0) =
      ∑ t ∈ Finset.range 416, if vbit gam (256 + t) then g.getD (256 + t) 0 else 0 := by
    refine Finset.sum_congr rfl fun t _ => ?_
    have : v ((256 + t) / 8) = gam ((256 + t) / 8) := by
      rw [hv, hgam]
      simp only
      rw [if_neg (by omega), if_neg (by omega)]
    unfold vbit
    rw [this]
  rw [hi, hx]
  ring

/-! ### Alice -/

theorem round2_ok (E : Env F G) (s : MultiplySender F) (hg : s.gadget.length = 672) (a ah : F)
    (m : Kos.Round1Output) (share : F) (o : MultiplyRound2Output F) :
    s.round2 E a ah m = .ok (share, o) ↔ ∃ tA t chi,
      Kos.round2 E.kos s.seed s.sid (List.replicate 672 (a, ah)) m = .ok (tA, o.tau) ∧
      appendTau E (appendRound1 s.transcript m) o.tau = .ok t ∧ drawChi E t = .ok chi ∧
      672 ≤ tA.length ∧
      o.R = (List.range 672).map (fun j => chi.1 * (tA.getD j 0).1 + chi.2 * (tA.getD j 0).2) ∧
      o.U = chi.1 * a + chi.2 * ah ∧
      share = ∑ j ∈ Finset.range 672, s.gadget.getD j 0 * (tA.getD j 0).1 := by
  unfold MultiplySender.round2
  rw [L_eq]
  have h672 : ∀ j : Nat, j < 672 → j < s.gadget.length := fun j hj => by rw [hg]; exact hj
  clear hg
  revert h672
  generalize 672 = n
  intro h672
  simp only [Res.bind_eq_ok]
  have hsum : ∀ tA : List (F × F), ∀ x, (List.range n).foldlM (fun acc j => do
      let a ← idx tA j
      let g ← idx s.gadget j
      Res.ok (acc + g * a.1)) (0 : F) = .ok x ↔ (∀ j < n, j < tA.length) ∧
        x = 0 + ∑ j ∈ Finset.range n, s.gadget.getD j 0 * (tA.getD j 0).1 := by
    intro tA x
    apply foldlM_sum_iff
    intro j hj acc x
    simp only [Res.bind_eq_ok]
    constructor
    · rintro ⟨y, h1, z, h2, h3⟩
      cases h3
      rw [idx_eq_ok] at h1 h2
      refine ⟨(List.getElem?_eq_some_iff.1 h1).1, ?_⟩
      rw [getD_some h1, getD_some h2]
    · rintro ⟨h1, rfl⟩
      exact ⟨_, idx_getD 0 h1, _, idx_getD 0 (h672 j hj), rfl⟩
  have hR : ∀ (tA : List (F × F)) (chi : F × F), (∀ j < n, j < tA.length) → (List.range n).mapM (fun j => do
      let a ← idx tA j
      Res.ok (0 + chi.1 * a.1 + chi.2 * a.2)) =
      .ok ((List.range n).map (fun j => chi.1 * (tA.getD j 0).1 + chi.2 * (tA.getD j 0).2)) := by
    intro tA chi hl
    apply mapM_ok
    intro j hj
    rw [idx_getD 0 (hl j (List.mem_range.1 hj)), Res.bind_ok, zero_add]
  constructor
  · rintro ⟨⟨tA, tau⟩, h1, t, h2, chi, h3, R, h4, sh, h5, h6⟩
    obtain ⟨h7, h8⟩ := (hsum tA sh).1 h5
    have := hR tA chi h7
    rw [h4] at this
    cases this
    cases h6
    refine ⟨tA, t, chi, h1, h2, h3, ?_, rfl, rfl, by rw [h8, zero_add]⟩
    by_contra hc
    exact absurd (h7 tA.length (by omega)) (lt_irrefl _)
  · rintro ⟨tA, t, chi, h1, h2, h3, hl, h4, h5, rfl⟩
    have h7 : ∀ j < n, j < tA.length := fun j hj => by omega
    refine ⟨(tA, o.tau), h1, t, h2, chi, h3, o.R, by rw [hR tA chi h7, h4], _,
      (hsum tA _).2 ⟨h7, rfl⟩, ?_⟩
    rw [zero_add, ← h5]

/-! ### Bob -/

theorem checkStep_ok (E : Env F G) (hbe : BeRep E.sc) (r : MultiplyReceiver F) (hg : r.gadget.length = 672)
    (chi : F × F) (tB : List (F × F)) (htB : tB.length = 672) (o : MultiplyRound2Output F) (hR : o.R.length = 672)
    (j : Nat) (hj : j < 672) (acc : F) :
    checkStep E r chi tB o acc j =
      if o.R.getD j 0 + chi.1 * (tB.getD j 0).1 + chi.2 * (tB.getD j 0).2 = (if vbit r.omega j then o.U else 0)
      then .ok (acc + r.gadget.getD j 0 * (tB.getD j 0).1) else .err := by
  unfold checkStep
  rw [idx_getD 0 (by omega), Res.bind_ok, idx_getD 0 (by omega), Res.bind_ok]
  simp only
  unfold ctCopy
  rw [if_neg (by simp [hbe.len]), Res.bind_ok]
  have e : ctSel (Kos.bitAt r.omega j).toNat (List.replicate 32 0) (E.sc.toBytes o.U) =
      E.sc.toBytes (if vbit r.omega j then o.U else 0) := by
    rw [bitAt_eq]
    unfold ctSel
    cases vbit r.omega j
    · simp [hbe.zero]
    · simp
  rw [e]
  set l := o.R.getD j 0 + chi.1 * (tB.getD j 0).1 + chi.2 * (tB.getD j 0).2
  by_cases hc : l = (if vbit r.omega j then o.U else 0)
  · rw [if_neg (by rw [hc]; simp), if_pos hc, idx_getD 0 (by omega), Res.bind_ok]
  · rw [if_pos (fun h => hc (toBytes_inj _ h).symm), if_neg hc]

/-- **C27** Bob's check, for *every* second message of Alice (672 values `R`, any `Tau`, any `U`), honest
or not.  Let `tB` be his output of the OT extension and `χ` the challenge from the transcript.  He goes
on iff `R_j + χ₀·tB_j₀ + χ₁·tB_j₁ = ω_j·U` for all 672 indices `j`, where `ω_j` is bit `j` of his encoded
input; then his share is `Σ g_j·tB_j₀`; otherwise he returns an error (never a panic, never a share). -/
theorem C27_check_iff (E : Env F G) (hbe : BeRep E.sc) (r : MultiplyReceiver F) (hg : r.gadget.length = 672)
    (o : MultiplyRound2Output F) (hR : o.R.length = 672) (t : Transcript)
    (ht : appendTau E r.transcript o.tau = .ok t) (tB : List (F × F))
    (h3 : Kos.round3 E.kos r.cot o.tau = .ok tB) (chi : F × F) (hchi : drawChi E t = .ok chi) :
    ((∀ j < 672, o.R.getD j 0 + chi.1 * (tB.getD j 0).1 + chi.2 * (tB.getD j 0).2 =
        if vbit r.omega j then o.U else 0) →
      r.round3 E o = .ok (∑ j ∈ Finset.range 672, r.gadget.getD j 0 * (tB.getD j 0).1)) ∧
    ((∃ j < 672, o.R.getD j 0 + chi.1 * (tB.getD j 0).1 + chi.2 * (tB.getD j 0).2 ≠
        if vbit r.omega j then o.U else 0) → r.round3 E o = .err) := by
  have htB : tB.length = 672 := by
    have := (mapM_range_eq_ok h3).1
    rwa [L_eq] at this
  have hstep := checkStep_ok E hbe r hg chi tB htB o hR
  have hr : r.round3 E o = (List.range 672).foldlM (checkStep E r chi tB o) 0 := by
    unfold MultiplyReceiver.round3
    rw [ht, Res.bind_ok, h3, Res.bind_ok, hchi, Res.bind_ok, L_eq]
  rw [hr]
  have hiff := foldlM_sum_iff (checkStep E r chi tB o)
    (fun j => o.R.getD j 0 + chi.1 * (tB.getD j 0).1 + chi.2 * (tB.getD j 0).2 = if vbit r.omega j then o.U else 0)
    (fun j => r.gadget.getD j 0 * (tB.getD j 0).1) 672 (by
      intro j hj a x
      rw [hstep j hj a]
      by_cases hc : o.R.getD j 0 + chi.1 * (tB.getD j 0).1 + chi.2 * (tB.getD j 0).2 =
          if vbit r.omega j then o.U else 0
      · rw [if_pos hc]
        exact ⟨fun h => ⟨hc, (Res.ok.inj h).symm⟩, fun h => by rw [h.2]⟩
      · rw [if_neg hc]
        exact ⟨fun h => (by cases h), fun h => absurd h.1 hc⟩)
  constructor
  · intro h
    rw [hiff]
    exact ⟨h, by rw [zero_add]⟩
  · rintro ⟨j, hj, hne⟩
    have hnp : ∀ n ≤ 672, ∀ a : F, (List.range n).foldlM (checkStep E r chi tB o) a ≠ .panic := by
      intro n hn
      induction n with
      | zero => intro a; simp
      | succ n ih =>
        intro a
        rw [List.range_succ, List.foldlM_append]
        cases hx : (List.range n).foldlM (checkStep E r chi tB o) a with
        | panic => exact absurd hx (ih (by omega) a)
        | err => simp
        | ok y =>
          rw [Res.bind_ok, List.foldlM_cons, hstep n (by omega)]
          by_cases hc : o.R.getD n 0 + chi.1 * (tB.getD n 0).1 + chi.2 * (tB.getD n 0).2 =
              if vbit r.omega n then o.U else 0
          · rw [if_pos hc, Res.bind_ok]; intro h; cases h
          · rw [if_neg hc]; intro h; cases h
    cases hx : (List.range 672).foldlM (checkStep E r chi tB o) 0 with
    | err => rfl
    | panic => exact absurd hx (hnp 672 le_rfl 0)
    | ok y => exact absurd (((hiff 0 y).1 hx).1 j hj) hne

/-! ### the honest run -/

/-- **C27** Honest run of the multiplication, for all correlated seeds, session ids, inputs `α` (Alice) and
`β` (Bob), all random bytes and pads, and all hash/XOF/transcript functions.  Bob's first round always
succeeds.  Whenever Alice's round succeeds, Bob's final round succeeds — his check never refuses honest
values — and the two shares add up to `α·β`.  Alice's round succeeds as soon as the XOF columns and the
transcript challenges decode to scalars. -/
theorem C27_honest (E : Env F G) (hbe : BeRep E.sc) (keys : List (Digest × Digest)) (seed : ReceiverOutput)
    (h : Correlated 256 keys seed) (sid : Digest) (alpha alphaHat beta : F) (gamma rnd : Nat → UInt8)
    (alice : MultiplySender F) (bob : MultiplyReceiver F)
    (hA : newMultiplySender E seed sid = .ok alice) (hB : newMultiplyReceiver E keys sid = .ok bob) :
    ∃ bob' m, bob.round1 E beta gamma rnd = .ok (bob', m) ∧
      (Decodable E.kos sid (nablaOf seed) bob'.cot.psi → (∀ t, ∃ chi, drawChi E t = .ok chi) →
        ∃ x, alice.round2 E alpha alphaHat m = .ok x) ∧
      ∀ shareA o, alice.round2 E alpha alphaHat m = .ok (shareA, o) →
        ∃ shareB, bob'.round3 E o = .ok shareB ∧ shareA + shareB = alpha * beta := by
  obtain ⟨gad, hgad, hA⟩ := Res.bind_eq_ok.1 hA
  obtain ⟨gad', hgad', hB⟩ := Res.bind_eq_ok.1 hB
  rw [hgad] at hgad'
  cases hgad'
  cases hA
  cases hB
  have hG := gadget_ok E gad hgad
  obtain ⟨om, hom, henc⟩ := encode_ok E hbe gad hG gamma beta
  obtain ⟨r, m, hr1, hdec, hdec', hsh⟩ := Kos.C25_honest E.kos keys seed h sid om rnd
    (List.replicate 672 (alpha, alphaHat)) List.length_replicate
  refine ⟨_, m, by
    unfold MultiplyReceiver.round1
    simp only
    rw [hom, Res.bind_ok, hr1, Res.bind_ok], ?_, ?_⟩
  · intro hd hchi
    obtain ⟨tA, tau, tB, h2, h3⟩ := hdec hd
    obtain ⟨hlA, hlB, -⟩ := hsh tA tau tB h2 h3
    have htau : ∀ j < 672, ∃ x, idx tau j = .ok x := by
      intro j hj
      obtain ⟨y, -, hy⟩ := (mapM_range_eq_ok h3).2 j (by rw [L_eq]; exact hj)
      obtain ⟨t, x0, x1, ht, -⟩ := (Kos.round3Step_ok ..).1 hy
      exact ⟨t, idx_eq_ok.2 ht⟩
    obtain ⟨rows, hrows⟩ := (mapM_range_ok_iff (f := idx tau) (n := Kos.Kappa)).2 fun i hi => htau i (by
      rw [Kappa_eq] at hi; omega)
    have happ : ∃ t, appendTau E (appendRound1 (mulTranscript sid) m) tau = .ok t := by
      unfold appendTau
      rw [hrows, Res.bind_ok]
      exact ⟨_, rfl⟩
    obtain ⟨t, ht⟩ := happ
    obtain ⟨chi, hc⟩ := hchi t
    have := (round2_ok E ⟨seed, gad, mulTranscript sid, sid⟩ hG.len alpha alphaHat m
      (∑ j ∈ Finset.range 672, gad.getD j 0 * (tA.getD j 0).1)
      ⟨tau, (List.range 672).map (fun j => chi.1 * (tA.getD j 0).1 + chi.2 * (tA.getD j 0).2),
        chi.1 * alpha + chi.2 * alphaHat⟩).2 ⟨tA, t, chi, by simp only; exact h2, by simp only; exact ht, hc, hlA.ge, by simp only, by simp only, by simp only⟩
    exact ⟨_, this⟩
  · intro shareA o hA2
    obtain ⟨tA, t, chi, h2, ht, hc, hl, hR, hU, hshare⟩ := (round2_ok E _ hG.len _ _ _ _ _).1 hA2
    obtain ⟨tA', tau', tB, h2', h3⟩ := hdec (hdec' _ h2)
    simp only at h2
    rw [h2] at h2'
    cases h2'
    obtain ⟨hlA, hlB, hrel⟩ := hsh tA o.tau tB h2 h3
    have hrel' : ∀ j < 672, tA.getD j 0 + tB.getD j 0 = if vbit om j then (alpha, alphaHat) else 0 := by
      intro j hj
      obtain ⟨a, t, b, h1, h2, h3, h4⟩ := hrel j hj
      rw [getD_some h2, getD_some h3, h4]
      rw [List.getElem?_replicate, if_pos hj] at h1
      cases h1
      rfl
    refine ⟨_, (C27_check_iff E hbe ⟨keys, r, om, gad, appendRound1 (mulTranscript sid) m, sid⟩ hG.len o
      (by rw [hR, List.length_map, List.length_range]) t ht tB h3 chi hc).1 ?_, ?_⟩
    · intro j hj
      have := hrel' j hj
      rw [Prod.ext_iff] at this
      obtain ⟨e1, e2⟩ := this
      simp only [Prod.fst_add, Prod.snd_add] at e1 e2
      rw [hR, List.getD_eq_getElem?_getD, List.getElem?_map, List.getElem?_range hj]
      simp only [Option.map_some, Option.getD_some]
      rw [show chi.1 * (tA.getD j 0).1 + chi.2 * (tA.getD j 0).2 + chi.1 * (tB.getD j 0).1 + chi.2 * (tB.getD j 0).2
        = chi.1 * ((tA.getD j 0).1 + (tB.getD j 0).1) + chi.2 * ((tA.getD j 0).2 + (tB.getD j 0).2) by ring, e1, e2]
      cases vbit om j
      · simp
      · simp [hU]
    · rw [hshare, ← Finset.sum_add_distrib, ← henc]
      unfold encoded
      rw [Finset.mul_sum]
      refine Finset.sum_congr rfl fun j hj => ?_
      have := congrArg Prod.fst (hrel' j (Finset.mem_range.1 hj))
      simp only [Prod.fst_add] at this
      rw [← mul_add, this]
      cases vbit om j
      · simp
      · simp [mul_comm]

/-! ### what the challenge covers -/

theorem mapM_congr' {α β : Type} {f g : α → Res β} (l : List α) (h : ∀ x ∈ l, f x = g x) : l.mapM f = l.mapM g := by
  induction l with
  | nil => rfl
  | cons x l ih => rw [List.mapM_cons, List.mapM_cons, h x (by simp), ih fun y hy => h y (by simp [hy])]

theorem appendTau_congr (E : Env F G) (t : Transcript) (tau tau' : List (F × F))
    (h : ∀ j < 256, tau[j]? = tau'[j]?) : appendTau E t tau = appendTau E t tau' := by
  unfold appendTau
  rw [mapM_congr' (f := idx tau) (g := idx tau')]
  intro j hj
  unfold idx
  rw [h j (by simpa [Kappa_eq] using hj)]

/-- **C27** (weakness) Rows 256..671 of `Tau` are not bound by the challenge `χ`: any two second messages
with the same `R` and `U`, whose `Tau` have equally many rows and agree on the first 256 rows and on the
rows where Bob's choice bit is set, lead Bob to the same outcome (share, error or panic).  So Alice may
alter row `j ≥ 256` arbitrarily and is caught only if bit `j` of Bob's encoding is one. -/
theorem C27_tail_rows_unchecked (E : Env F G) (r : MultiplyReceiver F) (tau tau' : List (F × F)) (R : List F) (U : F)
    (hl : tau.length = tau'.length)
    (h : ∀ j, j < 256 ∨ vbit r.cot.ext j = true → tau[j]? = tau'[j]?) :
    r.round3 E ⟨tau, R, U⟩ = r.round3 E ⟨tau', R, U⟩ := by
  have h3 : Kos.round3 E.kos r.cot tau = Kos.round3 E.kos r.cot tau' := by
    unfold Kos.round3
    apply mapM_congr'
    intro j _
    unfold Kos.round3Step
    simp only [bitAt_eq, Kos.outShare_eq]
    cases hb : vbit r.cot.ext j
    · simp only [Bool.false_eq_true, if_false]
      unfold idx
      by_cases hj : j < tau.length
      · rw [List.getElem?_eq_getElem hj, List.getElem?_eq_getElem (hl ▸ hj)]
        rfl
      · rw [List.getElem?_eq_none (by omega), List.getElem?_eq_none (by omega)]
    · unfold idx
      rw [h j (Or.inr hb)]
  have hst : ∀ chi tB, checkStep E r chi tB ⟨tau, R, U⟩ = checkStep E r chi tB ⟨tau', R, U⟩ := fun _ _ => rfl
  unfold MultiplyReceiver.round3
  simp only
  rw [appendTau_congr E r.transcript tau tau' fun j hj => h j (Or.inl hj), h3]
  simp only [hst]

end

/-! ### non-vacuity -/

local instance fact257 : Fact (Nat.Prime 257) := ⟨by norm_num⟩

theorem beRep_be (p : Nat) [NeZero p] (hp : p ≤ 256 ^ 32) [Fact p.Prime] : BeRep (Verif.Sharing.beCodec p 32 hp) where
  len x := length_natToBEfix ..
  val x := by
    show ((beToNat (natToBEfix 32 x.val) : Nat) : ZMod p) = x
    rw [beToNat_natToBEfix, Nat.mod_eq_of_lt (lt_of_lt_of_le (ZMod.val_lt x) hp), ZMod.natCast_zmod_val]
  zero := by
    show natToBEfix 32 (ZMod.val (0 : ZMod p)) = _
    rw [ZMod.val_zero]
    decide

/-- a toy environment: every digest, XOF block and challenge is `00..00b` -/
def toyEnv : Env (ZMod 257) (ZMod 257) :=
  { OT.toyEnv32 with
    H := Kos.toy.H
    X := fun t s i => if i = 31 then UInt8.ofNat (t.length + s.length) else 0
    shake := Kos.toy.shake
    gadgetStream := fun i => if i % 32 = 31 then UInt8.ofNat (i / 32) else 0 }

theorem toy_setBytes (b : UInt8) : toyEnv.sc.setBytes ((List.range 32).map fun t => if t = 31 then b else 0) ≠ none := by
  have h : ∀ n : Fin 256, toyEnv.sc.setBytes
      ((List.range 32).map fun t => if t = 31 then UInt8.ofNat n.val else 0) ≠ none := by decide +kernel
  have := h ⟨b.toNat, b.toNat_lt⟩
  simpa using this

theorem toy_chi (t : Transcript) : ∃ chi, drawChi toyEnv t = .ok chi := by
  have key : ∀ (t : Transcript) (s : String), ∃ x, toyEnv.sc.setBytes (bytesOf (toyEnv.X t s)) = some x := by
    intro t s
    have := Option.ne_none_iff_exists'.1 (toy_setBytes (UInt8.ofNat (t.length + s.length)))
    obtain ⟨x, hx⟩ := this
    refine ⟨x, ?_⟩
    rw [← hx]
    congr 1
  obtain ⟨x, hx⟩ := key t "draw challenge chi 0"
  obtain ⟨y, hy⟩ := key (t ++ [.extract "draw challenge chi 0"]) "draw challenge chi 1"
  refine ⟨(x, y), ?_⟩
  unfold drawChi OT.Env.extract
  dsimp only
  rw [hx, show Res.ofOption (some x) = Res.ok x from rfl, Res.bind_ok, hy]
  rfl

theorem toy_gadget : ∃ g, generateGadgetVector toyEnv = .ok g := by
  have : ∃ hi, (List.range (Kos.L - Kos.Kappa)).mapM (fun i =>
      Res.ofOption (toyEnv.sc.setBytes ((List.range 32).map fun t => toyEnv.gadgetStream (32 * i + t)))) = .ok hi := by
    rw [mapM_range_ok_iff]
    intro i _
    obtain ⟨x, hx⟩ := Option.ne_none_iff_exists'.1 (toy_setBytes (UInt8.ofNat i))
    refine ⟨x, ?_⟩
    rw [ofOption_ok, ← hx]
    congr 1
    apply List.map_congr_left
    intro t ht
    have ht := List.mem_range.1 ht
    show (if (32 * i + t) % 32 = 31 then UInt8.ofNat ((32 * i + t) / 32) else 0) = _
    by_cases h31 : t = 31
    · rw [if_pos (by omega), if_pos h31, show (32 * i + t) / 32 = i by omega]
    · rw [if_neg (by omega), if_neg h31]
  obtain ⟨hi, h⟩ := this
  unfold generateGadgetVector
  rw [h, Res.bind_ok]
  exact ⟨_, rfl⟩

/-- the honest run exists and both parties finish, for inputs 5 and 9 -/
example : ∃ alice bob bob' m shareA o shareB,
    newMultiplySender toyEnv Kos.toyOut (fun _ => 3) = .ok alice ∧
    newMultiplyReceiver toyEnv Kos.toyKeys (fun _ => 3) = .ok bob ∧
    bob.round1 toyEnv 9 (fun i => UInt8.ofNat (7 * i)) (fun i => UInt8.ofNat i) = .ok (bob', m) ∧
    alice.round2 toyEnv 5 77 m = .ok (shareA, o) ∧ bob'.round3 toyEnv o = .ok shareB ∧
    shareA + shareB = 45 := by
  obtain ⟨g, hg⟩ := toy_gadget
  have hA : ∃ alice, newMultiplySender toyEnv Kos.toyOut (fun _ => 3) = .ok alice := by
    unfold newMultiplySender; rw [hg]; exact ⟨_, rfl⟩
  have hB : ∃ bob, newMultiplyReceiver toyEnv Kos.toyKeys (fun _ => 3) = .ok bob := by
    unfold newMultiplyReceiver; rw [hg]; exact ⟨_, rfl⟩
  obtain ⟨alice, hA⟩ := hA
  obtain ⟨bob, hB⟩ := hB
  obtain ⟨bob', m, h1, h2, h3⟩ := C27_honest toyEnv (beRep_be 257 (by norm_num)) _ _ Kos.toy_correlated (fun _ => 3)
    5 77 9 (fun i => UInt8.ofNat (7 * i)) (fun i => UInt8.ofNat i) alice bob hA hB
  obtain ⟨⟨a, o⟩, h4⟩ := h2 (Kos.toy_decodable _ _ _) toy_chi
  obtain ⟨b, h5, h6⟩ := h3 a o h4
  exact ⟨alice, bob, bob', m, a, o, b, hA, hB, h1, h4, h5, by rw [h6]; decide⟩

end Verif.Dkls
