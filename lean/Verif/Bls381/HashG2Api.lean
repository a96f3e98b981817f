import Verif.Bls381.HashG2

/-!
# C102: hashing to G2
(`crypto/core/curves/native/bls12381/g2.go`)
-/

set_option maxRecDepth 20000
set_option linter.unusedSectionVars false
set_option exponentiation.threshold 1000

namespace Verif.Bls381.G2
open Verif.Bytes Verif.Native Verif.Native.Weier Verif.Native.Sswu P3
open Verif.Bls381.Fp2 (K2 E2 Rep2)

/-! ## Two concrete images -/

/-- The value of a polynomial, on pairs. -/
def evn (x : Nat × Nat) (l : List (Nat × Nat)) : Nat × Nat := l.foldr (fun c acc => Nat12.add2 Fp.p c (Nat12.mul2 Fp.p x acc)) (0, 0)

theorem evn_spec (x : Nat × Nat) (l : List (Nat × Nat)) : ev2 l (Fp6.el Fp.p x) = Fp6.el Fp.p (evn x l) := by
  induction l with
  | nil => exact el_zero'.symm
  | cons c l ih =>
    rw [ev2_cons, ih]
    change _ = Fp6.el Fp.p (Nat12.add2 Fp.p c (Nat12.mul2 Fp.p x (evn x l)))
    rw [Nat12.el_add2, Nat12.el_mul2 pos]

theorem el_div {n d m : Nat × Nat} (h : (Nat12.mul2 Fp.p m d).1 = n.1 % Fp.p ∧ (Nat12.mul2 Fp.p m d).2 = n.2 % Fp.p)
    (h0 : ¬ (d.1 % Fp.p = 0 ∧ d.2 % Fp.p = 0)) : Fp6.el Fp.p n / Fp6.el Fp.p d = Fp6.el Fp.p m := by
  rw [div_eq_iff (el_ne_zero h0), ← Nat12.el_mul2 pos, el_eq_iff, h.1, h.2, Nat.mod_mod, Nat.mod_mod]
  exact ⟨rfl, rfl⟩

theorem image0 : ev2 nx 0 / ev2 dx 0 = Fp6.el Fp.p (0x66bb89253ba71d3ec9e8839a528cf05c6a232406eb23d8497e6210b4cb6c1842d7fcd6e4b63c0ca343ef684bda11a56, 0x13955957e5c574c65e7d1f7c9e22ddd19dd5194484d2d53acf4ab195a9fa349ff12c329065f03f3585c0097b425e9055) := by
  rw [← el_zero', evn_spec, evn_spec]
  exact el_div (by decide +kernel) (by decide +kernel)

theorem swu1 : Swu (Fp6.el Fp.p (0x1, 0x0)) (Fp6.el Fp.p (0x696752daefe44a8cb58ed0c0a38b7bbafa35765f2992db59bd92b1e8996a4c1786903697b6e06d38eb13d70a3d6f49c, 0xe79c4da4742ee72e74008e131686b4ef11972928af902c19674c72b85e955d18bf43a061953740d8048d47ae1477e9a)) (Fp6.el Fp.p (0x324f02f20e4f3fd31d923f16df657c71de50e8697594bc0cdc7ede08b84b1b6b563c643768c230919a6c07aa916cc09, 0x19625ae3896f4aabd41ff3488ff0cb7f5708627ef294275f91e00b121e9e3edd3fc19fe9d783957710cb095c061fd76a)) := by
  have hsq : (Fp6.el Fp.p (0x324f02f20e4f3fd31d923f16df657c71de50e8697594bc0cdc7ede08b84b1b6b563c643768c230919a6c07aa916cc09, 0x19625ae3896f4aabd41ff3488ff0cb7f5708627ef294275f91e00b121e9e3edd3fc19fe9d783957710cb095c061fd76a)) ^ 2 = rhs (Fp6.el Fp.p ia) (Fp6.el Fp.p ib) (Fp6.el Fp.p (0x696752daefe44a8cb58ed0c0a38b7bbafa35765f2992db59bd92b1e8996a4c1786903697b6e06d38eb13d70a3d6f49c, 0xe79c4da4742ee72e74008e131686b4ef11972928af902c19674c72b85e955d18bf43a061953740d8048d47ae1477e9a)) := by
    rw [rhs_el, pow_two, ← Nat12.el_mul2 pos, el_eq_iff]
    decide +kernel
  have hs : (Fp6.el Fp.p iz * Fp6.el Fp.p (0x1, 0x0) ^ 2) ^ 2 + Fp6.el Fp.p iz * Fp6.el Fp.p (0x1, 0x0) ^ 2 = Fp6.el Fp.p (0x1, 0x3) := by
    rw [pow_two (Fp6.el Fp.p (0x1, 0x0)), pow_two, ← Nat12.el_mul2 pos, ← Nat12.el_mul2 pos, ← Nat12.el_mul2 pos, ← Nat12.el_add2, el_eq_iff]
    decide +kernel
  have hc : cand1 (Fp6.el Fp.p ia) (Fp6.el Fp.p ib) (Fp6.el Fp.p iz) (Fp6.el Fp.p (0x1, 0x0)) = Fp6.el Fp.p (0x696752daefe44a8cb58ed0c0a38b7bbafa35765f2992db59bd92b1e8996a4c1786903697b6e06d38eb13d70a3d6f49c, 0xe79c4da4742ee72e74008e131686b4ef11972928af902c19674c72b85e955d18bf43a061953740d8048d47ae1477e9a) := by
    obtain ⟨m, -, hm, em⟩ := mM
    have em' : -Fp6.el Fp.p ib / Fp6.el Fp.p ia = Fp6.el Fp.p (0x83c12791abdd5d2fe2f284f0cc6e5aa9b8c2d3f6f3f792302cf75e62bfc4df1d6834443da498888725d8cccccccb1c3, 0x11c4ff711ec210c74cec7f673684c72cc8eb1e458445999c64615cbacab4a8324828bbbad70a777747a173333332f8e8) := by rw [← em, div_eq_iff ia_ne, hm]
    unfold cand1
    dsimp only
    rw [hs, if_neg (el_ne_zero (by decide +kernel)), em', ← el_one', el_div (m := (0x1233f2f0c1d987d267c68eff9581c5c9f986b4dd10dd26b92ea22d0a4648ac4c7bdecccbe28799996898e66666662aab, 0x17675cec66f31c57a9ff4a24095db52840d1c3f7a7f7c412a9abf0c41138dd86e86799986c653332f4324ccccccc8000)) (by decide +kernel) (by decide +kernel),
      ← Nat12.el_add2, ← Nat12.el_mul2 pos, el_eq_iff]
    decide +kernel
  refine ⟨Or.inl ⟨?_, hc.symm⟩, hsq, Or.inr ?_⟩
  · rw [hc, ← hsq]
    exact ⟨_, pow_two _⟩
  · have hn (a : Nat × Nat) (h0 : a.1 % Fp.p ≠ 0) : sgn2 (Fp6.el Fp.p a) = a.1 % Fp.p % 2 := by
      unfold sgn2
      rw [if_neg]
      · show ((a.1 : Nat) : ZMod Fp.p).val % 2 = _
        rw [ZMod.val_natCast]
      · show ¬ ((a.1 : Nat) : ZMod Fp.p) = 0
        rw [ZMod.natCast_eq_zero_iff]
        exact fun h => h0 (Nat.mod_eq_zero_of_dvd h)
    rw [hn _ (by decide +kernel), hn _ (by decide +kernel)]
    decide +kernel

theorem image1 {u : E2} (hu : Rep2 u (Fp6.el Fp.p (0x1, 0x0))) : Rep2 (isogenyMap F isoTab (sswu u)).x (Fp6.el Fp.p (0x3e1b8c765baef609443db4bba1edfa68bf60259b287426bfe6796d2545fb1c9470ea9f47ad363add11ed7087dca4b27, 0x18149bb59a31b4a2358c0e5481a44d3df1048dcd9abbe16ce555f381158f776ecda8d437ffb3dbc0f231b4f3dea15fc6)) ∧
    Rep2 (isogenyMap F isoTab (sswu u)).y (Fp6.el Fp.p (0x16a155d04ee9cbaa6739b281d4d514eb0752c0550a3c3628d74748302364fc9aa9fec2c433725e855d4406637c5c53a1, 0xbe9a8f9433c3cdc846c84bd19c23c04fafa82d8512b0d247b955037430640ba4fd58c5d0e135507342d9761d2d20004)) ∧ Rep2 (isogenyMap F isoTab (sswu u)).z 1 := by
  obtain ⟨x, y, hx, hy, -, hs⟩ := sswu_spec hu (el_ne_zero (by decide +kernel))
  obtain ⟨rfl, rfl⟩ := swu_fun hs swu1
  obtain ⟨h1, h2, h3⟩ := isogenyMap_spec FOk inv_ok t1 t2 t3 t4 hx hy
  change Rep2 _ (ev2 nx _ / ev2 dx _) at h1
  change Rep2 _ (Fp6.el Fp.p (0x324f02f20e4f3fd31d923f16df657c71de50e8697594bc0cdc7ede08b84b1b6b563c643768c230919a6c07aa916cc09, 0x19625ae3896f4aabd41ff3488ff0cb7f5708627ef294275f91e00b121e9e3edd3fc19fe9d783957710cb095c061fd76a) * (ev2 ny _ / ev2 dy _)) at h2
  rw [evn_spec, evn_spec, el_div (m := (0x3e1b8c765baef609443db4bba1edfa68bf60259b287426bfe6796d2545fb1c9470ea9f47ad363add11ed7087dca4b27, 0x18149bb59a31b4a2358c0e5481a44d3df1048dcd9abbe16ce555f381158f776ecda8d437ffb3dbc0f231b4f3dea15fc6)) (by decide +kernel) (by decide +kernel)] at h1
  rw [evn_spec, evn_spec, mul_div_assoc', ← Nat12.el_mul2 pos, el_div (m := (0x16a155d04ee9cbaa6739b281d4d514eb0752c0550a3c3628d74748302364fc9aa9fec2c433725e855d4406637c5c53a1, 0xbe9a8f9433c3cdc846c84bd19c23c04fafa82d8512b0d247b955037430640ba4fd58c5d0e135507342d9761d2d20004)) (by decide +kernel) (by decide +kernel)] at h2
  exact ⟨h1, h2, h3⟩

section
variable {E E' : Type} {T : TOps E} {T' : TOps E'} {R : E → K2 → Prop} {R' : E' → K2 → Prop} (k : TOK T R) (k' : TOK T' R')
include k k'

theorem s_frob {a : E} {a' : E'} (h : Same R R' a a') : Same R R' (T.frob a) (T'.frob a') := by
  obtain ⟨x, h1, h2⟩ := h
  exact ⟨_, k.frob h1, k'.frob h2⟩

theorem s3_psi {e : P3 E} {e' : P3 E'} (h : Same3 R R' e e') : Same3 R R' (psi T e) (psi T' e') :=
  ⟨s_mul k.fo k'.fo (s_frob k k' h.1) ⟨_, k.cx, k'.cx⟩, s_mul k.fo k'.fo (s_frob k k' h.2) ⟨_, k.cy, k'.cy⟩, s_frob k k' h.3⟩

theorem s3_psi2 {e : P3 E} {e' : P3 E'} (h : Same3 R R' e e') : Same3 R R' (psi2 T e) (psi2 T' e') :=
  ⟨s_mul k.fo k'.fo h.1 ⟨_, k.c2, k'.c2⟩, s_neg k.fo k'.fo h.2, h.3⟩

theorem s3_clearWith {e : P3 E} {e' : P3 E'} (h : Same3 R R' e e') : Same3 R R' (clearWith T e) (clearWith T' e') := by
  unfold clearWith
  dsimp only
  have h1 := s3_mulByX k.fo k'.fo h
  have h2 := s3_psi k k' h
  have h3 := s3_psi2 k k' (s3_double k.fo k'.fo h)
  have h4 := s3_mulByX k.fo k'.fo (s3_add k.fo k'.fo h1 h2)
  exact s3_sub k.fo k'.fo (s3_sub k.fo k'.fo (s3_sub k.fo k'.fo (s3_add k.fo k'.fo h3 h4) h1) h2) h
end

theorem s3_clear {e : Point} {e' : P3 (Nat × Nat)} (h : Same3 Rep2 RN e e') : Same3 Rep2 RN (clearWith TF e) (clearWith NT e') :=
  s3_clearWith TOk NTk h

/-! ## The theorems -/

theorem exc_sq2 : IsSquare (rhs (Fp6.el Fp.p ia) (Fp6.el Fp.p ib) (Fp6.el Fp.p ib / (Fp6.el Fp.p iz * Fp6.el Fp.p ia))) := by
  have hz : Fp6.el Fp.p iz ≠ 0 := el_ne_zero (by decide +kernel)
  have e : Fp6.el Fp.p ib / (Fp6.el Fp.p iz * Fp6.el Fp.p ia) = Fp6.el Fp.p (0x1a59d4b6bbf912a32d63b43028e2deeebe8d5d97ca64b6d66f64ac7a265a9305e1a40da5edb81b4e3ac4f5c28f5bd27, 0x15103a07f641331bb298f5ed3ba1230aa0bcc9f87d923077324df24a0f7ffa93045d3d6f94c17ae10efa11eb851e7336) := by
    rw [div_eq_iff (mul_ne_zero hz ia_ne), ← Nat12.el_mul2 pos, ← Nat12.el_mul2 pos, el_eq_iff]
    decide +kernel
  rw [e, rhs_el]
  refine ⟨Fp6.el Fp.p (0x1776b5d3dd70bb2ac6e46be0849209c9c47853350da878bdc14a5042102f1f01cbc75043b8d13d709dd5ca27f92cb390, 0x2c094c100c4f8a157767045bc04279dd04f207fbddc4de6675911b512cddacc0061215698453b5b11125516029e4d21), ?_⟩
  rw [← Nat12.el_mul2 pos, el_eq_iff]
  decide +kernel

theorem swu_zero_exists : ∃ x y, Swu 0 x y := by
  have hc : cand1 (Fp6.el Fp.p ia) (Fp6.el Fp.p ib) (Fp6.el Fp.p iz) 0 = Fp6.el Fp.p ib / (Fp6.el Fp.p iz * Fp6.el Fp.p ia) := by
    unfold cand1
    exact if_pos (by ring)
  obtain ⟨s, hs⟩ := exc_sq2
  have hs' : s ^ 2 = rhs (Fp6.el Fp.p ia) (Fp6.el Fp.p ib) (Fp6.el Fp.p ib / (Fp6.el Fp.p iz * Fp6.el Fp.p ia)) := by rw [hs, pow_two]
  have h0 : sgn2 0 = 0 := by
    unfold sgn2
    rw [if_pos (by exact QuadraticAlgebra.re_zero), QuadraticAlgebra.im_zero, ZMod.val_zero]
  by_cases h : sgn2 s = 0
  · exact ⟨_, s, Or.inl ⟨by rw [hc]; exact exc_sq2, hc.symm⟩, hs', Or.inr (h.trans h0.symm)⟩
  · refine ⟨_, -s, Or.inl ⟨by rw [hc]; exact exc_sq2, hc.symm⟩, by rw [neg_sq]; exact hs', ?_⟩
    by_cases hs0 : s = 0
    · exact Or.inl (by rw [hs0, neg_zero])
    · refine Or.inr ?_
      have h1 := sgn2_neg s hs0
      have b1 := sgn2_bit s
      have b2 := sgn2_bit (-s)
      omega

/-- **C102.** The map is a function: every element of the quadratic field has exactly one image. -/
theorem C102_g2_map_unique (w : K2) : ∃! P, IsMap w P := by
  have hex : ∃ x y, Swu w x y := by
    by_cases hw : w = 0
    · rw [hw]; exact swu_zero_exists
    · obtain ⟨u, hu⟩ := rep_val2 w
      obtain ⟨x, y, -, -, -, hs⟩ := sswu_spec hu hw
      exact ⟨x, y, hs⟩
  obtain ⟨x, y, hs⟩ := hex
  obtain ⟨d1, d2⟩ := den_ne hs.2.1
  have hn := nonsing FOk.two noTwo (image_eqn hs.2.1)
  refine ⟨.some _ _ hn, ⟨x, y, hs, d1, d2, hn, rfl⟩, ?_⟩
  rintro Q ⟨x', y', hs', -, -, hn', rfl⟩
  obtain ⟨rfl, rfl⟩ := swu_fun hs hs'
  rfl

theorem elems256 {h : Hasher} (msg dst : List UInt8) (hl : (uniformN 256 h msg dst).length = 256) :
    Rep2 ⟨Fp.setBytesWide (wideBuf64 ((uniformN 256 h msg dst).take 64)),
      Fp.setBytesWide (wideBuf64 (((uniformN 256 h msg dst).drop 64).take 64))⟩ (elem h msg dst 0) ∧
    Rep2 ⟨Fp.setBytesWide (wideBuf64 (((uniformN 256 h msg dst).drop 128).take 64)),
      Fp.setBytesWide (wideBuf64 ((uniformN 256 h msg dst).drop 192))⟩ (elem h msg dst 1) := by
  have e3 : (uniformN 256 h msg dst).drop 192 = ((uniformN 256 h msg dst).drop 192).take 64 := by
    rw [List.take_of_length_le (l := List.drop 192 (uniformN 256 h msg dst)) (by rw [List.length_drop]; omega)]
  rw [e3]
  have w (i : Nat) (hi : i ≤ 192) := wide64 (((uniformN 256 h msg dst).drop i).take 64) (by rw [List.length_take, List.length_drop]; omega)
  have w0 := w 0 (by decide)
  rw [List.drop_zero] at w0
  exact ⟨⟨w0, w 64 (by decide)⟩, ⟨w 128 (by decide), w 192 (by decide)⟩⟩

/-- **C102.** Hashing to G2: for every hash function, message and tag of at most 255 bytes, unless one of the two field elements of the
message is zero, the result is the point of RFC 9380: the sum of the images of the two elements, with the cofactor cleared, a multiple of
the generator. -/
theorem C102_g2_hash_partial {h : Hasher} (hw : h.WF) (msg dst : List UInt8) (hd : dst.length ≤ 255)
    (h0 : elem h msg dst 0 ≠ 0) (h1 : elem h msg dst 1 ≠ 0) :
    ∃ e P Q, hash h msg dst = .ok e ∧ IsMap (elem h msg dst 0) P ∧ IsMap (elem h msg dst 1) Q ∧
      Rep e (clearHom (P + Q)) ∧ (∃ k : Nat, k < Fq.q ∧ clearHom (P + Q) = k • G) ∧ inCorrectSubgroup F e = 1 := by
  obtain ⟨hx, hl⟩ := expand_uniformN hw 256 (by decide) msg dst hd
  obtain ⟨e0, e1⟩ := elems256 msg dst hl
  obtain ⟨P, r0, m0⟩ := map_spec e0 h0
  obtain ⟨Q, r1, m1⟩ := map_spec e1 h1
  unfold hash
  rw [hx, Res.bind_ok]
  dsimp only
  have ra := P3.add_spec FOk r0 r1
  have hr : Rep (clearCofactor _) (clearHom (P + Q)) := clear_spec TOk ra
  exact ⟨_, P, Q, rfl, m0, m1, hr, torsion (clear_torsion _), (C96_clear_cofactor ra).2⟩

/-- **C102.** For the element zero the code computes coordinates that are not those of a point of the curve. -/
theorem C102_g2_map_violated {u : E2} (hu : Rep2 u 0) : isOnCurve F (isogenyMap F isoTab (sswu u)) = 0 := by
  obtain ⟨h1, h2, h3⟩ := map_zero hu
  rw [image0] at h1
  have s : Same3 Rep2 RN (isogenyMap F isoTab (sswu u)) ⟨(0x66bb89253ba71d3ec9e8839a528cf05c6a232406eb23d8497e6210b4cb6c1842d7fcd6e4b63c0ca343ef684bda11a56, 0x13955957e5c574c65e7d1f7c9e22ddd19dd5194484d2d53acf4ab195a9fa349ff12c329065f03f3585c0097b425e9055), (0, 0), (1, 0)⟩ :=
    ⟨⟨_, h1, by decide +kernel, by decide +kernel, rfl⟩, ⟨_, h2, NOk.zero⟩, ⟨_, h3, NOk.one⟩⟩
  rw [s3_onCurve FOk NOk s]
  decide +kernel

/-- A hash function with extendable output whose first 128 bytes are zero, and then one. -/
def badHasher : Hasher := ⟨.shake128, .xof fun _ n => (List.replicate 191 (0 : UInt8) ++ (1 : UInt8) :: List.replicate n (0 : UInt8)).take n⟩

theorem bad_wf : badHasher.WF := by
  intro m n
  show List.length (List.take n _) = n
  rw [List.length_take, List.length_append, List.length_cons, List.length_replicate, List.length_replicate]
  omega

/-- **C102.** The claim that the result is always a point is false: there is a hash function for which it is not on the curve. -/
theorem C102_g2_hash_violated : ∃ h : Hasher, h.WF ∧ ∃ e, hash h [] [] = .ok e ∧ isOnCurve F e = 0 := by
  refine ⟨badHasher, bad_wf, ?_⟩
  obtain ⟨hx, hl⟩ := expand_uniformN bad_wf 256 (by decide) [] [] (by decide)
  obtain ⟨e0, e1⟩ := elems256 [] [] hl
  have hu : uniformN 256 badHasher [] [] = List.replicate 191 0 ++ 1 :: List.replicate 64 0 := by decide +kernel
  have v0 : elem badHasher [] [] 0 = 0 := by
    unfold elem piece64
    rw [hu]
    rw [show beToNat (List.take 64 (List.drop (64 * (2 * 0)) (List.replicate 191 0 ++ 1 :: List.replicate 64 0))) = 0 by decide +kernel,
      show beToNat (List.take 64 (List.drop (64 * (2 * 0 + 1)) (List.replicate 191 0 ++ 1 :: List.replicate 64 0))) = 0 by decide +kernel]
    exact el_zero'
  have v1 : elem badHasher [] [] 1 = Fp6.el Fp.p (0x1, 0x0) := by
    unfold elem piece64
    rw [hu]
    rw [show beToNat (List.take 64 (List.drop (64 * (2 * 1)) (List.replicate 191 0 ++ 1 :: List.replicate 64 0))) = 1 by decide +kernel,
      show beToNat (List.take 64 (List.drop (64 * (2 * 1 + 1)) (List.replicate 191 0 ++ 1 :: List.replicate 64 0))) = 0 by decide +kernel]
    rfl
  rw [v0] at e0
  rw [v1] at e1
  unfold hash
  rw [hx, Res.bind_ok]
  refine ⟨_, rfl, ?_⟩
  obtain ⟨a1, a2, a3⟩ := map_zero e0
  rw [image0] at a1
  obtain ⟨b1, b2, b3⟩ := image1 e1
  generalize isogenyMap F isoTab (sswu ⟨Fp.setBytesWide (wideBuf64 ((uniformN 256 badHasher [] []).take 64)),
      Fp.setBytesWide (wideBuf64 (((uniformN 256 badHasher [] []).drop 64).take 64))⟩) = q0 at *
  generalize isogenyMap F isoTab (sswu ⟨Fp.setBytesWide (wideBuf64 (((uniformN 256 badHasher [] []).drop 128).take 64)),
      Fp.setBytesWide (wideBuf64 ((uniformN 256 badHasher [] []).drop 192))⟩) = q1 at *
  have s0 : Same3 Rep2 RN q0 ⟨(0x66bb89253ba71d3ec9e8839a528cf05c6a232406eb23d8497e6210b4cb6c1842d7fcd6e4b63c0ca343ef684bda11a56, 0x13955957e5c574c65e7d1f7c9e22ddd19dd5194484d2d53acf4ab195a9fa349ff12c329065f03f3585c0097b425e9055), (0, 0), (1, 0)⟩ :=
    ⟨⟨_, a1, by decide +kernel, by decide +kernel, rfl⟩, ⟨_, a2, NOk.zero⟩, ⟨_, a3, NOk.one⟩⟩
  have s1 : Same3 Rep2 RN q1 ⟨(0x3e1b8c765baef609443db4bba1edfa68bf60259b287426bfe6796d2545fb1c9470ea9f47ad363add11ed7087dca4b27, 0x18149bb59a31b4a2358c0e5481a44d3df1048dcd9abbe16ce555f381158f776ecda8d437ffb3dbc0f231b4f3dea15fc6), (0x16a155d04ee9cbaa6739b281d4d514eb0752c0550a3c3628d74748302364fc9aa9fec2c433725e855d4406637c5c53a1, 0xbe9a8f9433c3cdc846c84bd19c23c04fafa82d8512b0d247b955037430640ba4fd58c5d0e135507342d9761d2d20004), (1, 0)⟩ :=
    ⟨⟨_, b1, by decide +kernel, by decide +kernel, rfl⟩, ⟨_, b2, by decide +kernel, by decide +kernel, rfl⟩, ⟨_, b3, NOk.one⟩⟩
  have s := s3_clear (s3_add FOk NOk s0 s1)
  unfold clearCofactor
  rw [s3_onCurve FOk NOk s]
  decide +kernel

/-- **C102.** The random point: an error of the reader or a read of other than 64 bytes is reported, and otherwise the result is the hash
of the bytes read under the tag of the suite. -/
theorem C102_g2_random (L : HashLib) (r : Read) :
    ((r.failed = true ∨ r.data.length ≠ 64) → random L r = .err) ∧
    (r.failed = false → r.data.length = 64 → random L r = hash (newHasher L .sha256) r.data (strBytes "BLS12381G2_XMD:SHA-256_SSWU_RO_")) := by
  unfold random
  constructor
  · rintro (h | h)
    · rw [h]; rfl
    · cases r.failed
      · exact if_pos h
      · rfl
  · intro h1 h2
    rw [h1, if_neg (by decide), if_neg (not_not.2 h2)]
    have : r.buf = r.data := by unfold Read.buf; rw [h2]; simp
    rw [this]

/-! ## The hypotheses are met -/

/-- A fixed output: both elements are `1 + i` times the same number. -/
def okHasher : Hasher := ⟨.shake128, .xof fun _ n => List.replicate n 1⟩

example : okHasher.WF ∧ elem okHasher [1, 2] [3] 0 ≠ 0 ∧ elem okHasher [1, 2] [3] 1 ≠ 0 := by
  refine ⟨fun m n => List.length_replicate, ?_, ?_⟩
  · have : elem okHasher [1, 2] [3] 0 = Fp6.el Fp.p (beToNat (List.replicate 64 1), beToNat (List.replicate 64 1)) := by
      unfold elem piece64
      rw [show (List.drop (64 * (2 * 0)) (uniformN 256 okHasher [1, 2] [3])).take 64 = List.replicate 64 1 by decide +kernel,
        show (List.drop (64 * (2 * 0 + 1)) (uniformN 256 okHasher [1, 2] [3])).take 64 = List.replicate 64 1 by decide +kernel]
      rfl
    rw [this]
    exact el_ne_zero (by decide +kernel)
  · have : elem okHasher [1, 2] [3] 1 = Fp6.el Fp.p (beToNat (List.replicate 64 1), beToNat (List.replicate 64 1)) := by
      unfold elem piece64
      rw [show (List.drop (64 * (2 * 1)) (uniformN 256 okHasher [1, 2] [3])).take 64 = List.replicate 64 1 by decide +kernel,
        show (List.drop (64 * (2 * 1 + 1)) (uniformN 256 okHasher [1, 2] [3])).take 64 = List.replicate 64 1 by decide +kernel]
      rfl
    rw [this]
    exact el_ne_zero (by decide +kernel)

end Verif.Bls381.G2
