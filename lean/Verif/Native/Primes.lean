import Mathlib.NumberTheory.LucasPrimality
import Mathlib.Tactic.NormNum.Prime

/-!
# Primality of the field moduli (generated by `tools/pratt.py`)

Pratt certificates: a complete factorisation of `p - 1` and a primitive root, checked by the kernel with a modular power
function and `lucas_primality`.
-/

namespace Verif.Native.Primes

/-- Square-and-multiply modulo `m`, least significant bit first. -/
def pw (m : Nat) : Nat → Nat → Nat → Nat → Nat
  | 0, _, _, acc => acc
  | f + 1, b, e, acc => pw m f (b * b % m) (e / 2) (if e % 2 = 1 then acc * b % m else acc)

theorem pw_spec (m f : Nat) : ∀ b e acc : Nat, e < 2 ^ f → ((pw m f b e acc : Nat) : ZMod m) = acc * (b : ZMod m) ^ e := by
  induction f with
  | zero =>
    intro b e acc h
    have : e = 0 := by omega
    subst this
    simp [pw]
  | succ f ih =>
    intro b e acc h
    rw [pw, ih _ _ _ (by omega)]
    have he : e = 2 * (e / 2) + e % 2 := by omega
    have hb : ((b * b % m : Nat) : ZMod m) = (b : ZMod m) ^ 2 := by
      rw [ZMod.natCast_mod, Nat.cast_mul, pow_two]
    rw [hb, ← pow_mul]
    by_cases h1 : e % 2 = 1
    · rw [if_pos h1, ZMod.natCast_mod, Nat.cast_mul]
      conv_rhs => rw [he, h1, pow_succ]
      rw [mul_assoc, mul_comm ((b : ZMod m))]
    · have h0 : e % 2 = 0 := by omega
      rw [if_neg h1]
      conv_rhs => rw [he, h0, Nat.add_zero]

theorem all_nil : ∀ q ∈ ([] : List Nat), Nat.Prime q := fun _ h => absurd h (by simp)

theorem all_cons {a : Nat} {l : List Nat} (ha : Nat.Prime a) (hl : ∀ q ∈ l, Nat.Prime q) :
    ∀ q ∈ a :: l, Nat.Prime q := by
  intro q hq
  rcases List.mem_cons.1 hq with rfl | h
  · exact ha
  · exact hl q h

theorem pratt (p a : Nat) (l : List Nat) (hl : ∀ q ∈ l, Nat.Prime q) (hprod : l.prod + 1 = p ∧ 1 < p ∧ p < 2 ^ 400)
    (h1 : pw p 400 a (p - 1) 1 % p = 1) (h2 : l.all (fun q => pw p 400 a ((p - 1) / q) 1 % p != 1) = true) :
    Nat.Prime p := by
  obtain ⟨hp, hp1, hp2⟩ := hprod
  refine lucas_primality p (a : ZMod p) ?_ ?_
  · have h := pw_spec p 400 a (p - 1) 1 (by omega)
    rw [Nat.cast_one, one_mul] at h
    rw [← h, ← ZMod.natCast_mod, h1, Nat.cast_one]
  · intro q hq hd hc
    rw [← hp, Nat.add_sub_cancel] at hd
    obtain ⟨r, hr, hdr⟩ := (Prime.dvd_prod_iff hq.prime).1 hd
    have : q = r := (Nat.prime_dvd_prime_iff_eq hq (hl r hr)).1 hdr
    subst this
    have hne := List.all_eq_true.1 h2 q hr
    have h := pw_spec p 400 a ((p - 1) / q) 1 (lt_of_le_of_lt (Nat.div_le_self _ _) (by omega))
    rw [Nat.cast_one, one_mul, hc] at h
    have hm := (ZMod.natCast_eq_natCast_iff (pw p 400 a ((p - 1) / q) 1) 1 p).1 (by rw [Nat.cast_one]; exact h)
    unfold Nat.ModEq at hm
    rw [Nat.mod_eq_of_lt hp1] at hm
    simp [hm] at hne

theorem prime_2 : Nat.Prime 2 := by norm_num

theorem prime_3 : Nat.Prime 3 := by norm_num

theorem prime_5 : Nat.Prime 5 := by norm_num

theorem prime_7 : Nat.Prime 7 := by norm_num

theorem prime_13441 : Nat.Prime
    13441 :=
  pratt _ 11 [2, 2, 2, 2, 2, 2, 2, 3, 5, 7]
    (all_cons prime_2 (all_cons prime_2 (all_cons prime_2 (all_cons prime_2 (all_cons prime_2 (all_cons prime_2 (all_cons prime_2 (all_cons prime_3 (all_cons prime_5 (all_cons prime_7 all_nil))))))))))
    (by decide +kernel) (by decide +kernel) (by decide +kernel)

theorem prime_2657 : Nat.Prime 2657 := by norm_num

theorem prime_4423 : Nat.Prime 4423 := by norm_num

theorem prime_11 : Nat.Prime 11 := by norm_num

theorem prime_101 : Nat.Prime 101 := by norm_num

theorem prime_239 : Nat.Prime 239 := by norm_num

theorem prime_96557 : Nat.Prime
    96557 :=
  pratt _ 2 [2, 2, 101, 239]
    (all_cons prime_2 (all_cons prime_2 (all_cons prime_101 (all_cons prime_239 all_nil))))
    (by decide +kernel) (by decide +kernel) (by decide +kernel)

theorem prime_419 : Nat.Prime 419 := by norm_num

theorem prime_20113 : Nat.Prime
    20113 :=
  pratt _ 10 [2, 2, 2, 2, 3, 419]
    (all_cons prime_2 (all_cons prime_2 (all_cons prime_2 (all_cons prime_2 (all_cons prime_3 (all_cons prime_419 all_nil))))))
    (by decide +kernel) (by decide +kernel) (by decide +kernel)

theorem prime_1206781 : Nat.Prime
    1206781 :=
  pratt _ 10 [2, 2, 3, 5, 20113]
    (all_cons prime_2 (all_cons prime_2 (all_cons prime_3 (all_cons prime_5 (all_cons prime_20113 all_nil)))))
    (by decide +kernel) (by decide +kernel) (by decide +kernel)

theorem prime_7240687 : Nat.Prime
    7240687 :=
  pratt _ 3 [2, 3, 1206781]
    (all_cons prime_2 (all_cons prime_3 (all_cons prime_1206781 all_nil)))
    (by decide +kernel) (by decide +kernel) (by decide +kernel)

theorem prime_103 : Nat.Prime 103 := by norm_num

theorem prime_41201 : Nat.Prime
    41201 :=
  pratt _ 3 [2, 2, 2, 2, 5, 5, 103]
    (all_cons prime_2 (all_cons prime_2 (all_cons prime_2 (all_cons prime_2 (all_cons prime_5 (all_cons prime_5 (all_cons prime_103 all_nil)))))))
    (by decide +kernel) (by decide +kernel) (by decide +kernel)

theorem prime_53 : Nat.Prime 53 := by norm_num

theorem prime_29 : Nat.Prime 29 := by norm_num

theorem prime_107590001 : Nat.Prime
    107590001 :=
  pratt _ 3 [2, 2, 2, 2, 5, 5, 5, 5, 7, 29, 53]
    (all_cons prime_2 (all_cons prime_2 (all_cons prime_2 (all_cons prime_2 (all_cons prime_5 (all_cons prime_5 (all_cons prime_5 (all_cons prime_5 (all_cons prime_7 (all_cons prime_29 (all_cons prime_53 all_nil)))))))))))
    (by decide +kernel) (by decide +kernel) (by decide +kernel)

theorem prime_1627 : Nat.Prime 1627 := by norm_num

theorem prime_255515944373312847190720520512484175977 : Nat.Prime
    255515944373312847190720520512484175977 :=
  pratt _ 3 [2, 2, 2, 7, 7, 11, 1627, 2657, 4423, 41201, 96557, 7240687, 107590001]
    (all_cons prime_2 (all_cons prime_2 (all_cons prime_2 (all_cons prime_7 (all_cons prime_7 (all_cons prime_11 (all_cons prime_1627 (all_cons prime_2657 (all_cons prime_4423 (all_cons prime_41201 (all_cons prime_96557 (all_cons prime_7240687 (all_cons prime_107590001 all_nil)))))))))))))
    (by decide +kernel) (by decide +kernel) (by decide +kernel)

theorem prime_13 : Nat.Prime 13 := by norm_num

theorem prime_7723 : Nat.Prime
    7723 :=
  pratt _ 3 [2, 3, 3, 3, 11, 13]
    (all_cons prime_2 (all_cons prime_3 (all_cons prime_3 (all_cons prime_3 (all_cons prime_11 (all_cons prime_13 all_nil))))))
    (by decide +kernel) (by decide +kernel) (by decide +kernel)

theorem prime_443 : Nat.Prime 443 := by norm_num

theorem prime_24809 : Nat.Prime
    24809 :=
  pratt _ 6 [2, 2, 2, 7, 443]
    (all_cons prime_2 (all_cons prime_2 (all_cons prime_2 (all_cons prime_7 (all_cons prime_443 all_nil)))))
    (by decide +kernel) (by decide +kernel) (by decide +kernel)

theorem prime_971 : Nat.Prime 971 := by norm_num

theorem prime_1373 : Nat.Prime 1373 := by norm_num

theorem prime_13331831 : Nat.Prime
    13331831 :=
  pratt _ 13 [2, 5, 971, 1373]
    (all_cons prime_2 (all_cons prime_5 (all_cons prime_971 (all_cons prime_1373 all_nil))))
    (by decide +kernel) (by decide +kernel) (by decide +kernel)

theorem prime_2621 : Nat.Prime 2621 := by norm_num

theorem prime_173378833005251801 : Nat.Prime
    173378833005251801 :=
  pratt _ 6 [2, 2, 2, 5, 5, 2621, 24809, 13331831]
    (all_cons prime_2 (all_cons prime_2 (all_cons prime_2 (all_cons prime_5 (all_cons prime_5 (all_cons prime_2621 (all_cons prime_24809 (all_cons prime_13331831 all_nil))))))))
    (by decide +kernel) (by decide +kernel) (by decide +kernel)

theorem prime_887 : Nat.Prime 887 := by norm_num

theorem prime_5323 : Nat.Prime
    5323 :=
  pratt _ 5 [2, 3, 887]
    (all_cons prime_2 (all_cons prime_3 (all_cons prime_887 all_nil)))
    (by decide +kernel) (by decide +kernel) (by decide +kernel)

theorem prime_22149492674086928081353 : Nat.Prime
    22149492674086928081353 :=
  pratt _ 5 [2, 2, 2, 3, 5323, 173378833005251801]
    (all_cons prime_2 (all_cons prime_2 (all_cons prime_2 (all_cons prime_3 (all_cons prime_5323 (all_cons prime_173378833005251801 all_nil))))))
    (by decide +kernel) (by decide +kernel) (by decide +kernel)

theorem prime_132896956044521568488119 : Nat.Prime
    132896956044521568488119 :=
  pratt _ 6 [2, 3, 22149492674086928081353]
    (all_cons prime_2 (all_cons prime_3 (all_cons prime_22149492674086928081353 all_nil)))
    (by decide +kernel) (by decide +kernel) (by decide +kernel)

theorem prime_31 : Nat.Prime 31 := by norm_num

theorem prime_205115282021455665897114700593932402728804164701536103180137503955397371 : Nat.Prime
    205115282021455665897114700593932402728804164701536103180137503955397371 :=
  pratt _ 10 [2, 3, 5, 29, 29, 31, 7723, 132896956044521568488119, 255515944373312847190720520512484175977]
    (all_cons prime_2 (all_cons prime_3 (all_cons prime_5 (all_cons prime_29 (all_cons prime_29 (all_cons prime_31 (all_cons prime_7723 (all_cons prime_132896956044521568488119 (all_cons prime_255515944373312847190720520512484175977 all_nil)))))))))
    (by decide +kernel) (by decide +kernel) (by decide +kernel)

theorem prime_115792089237316195423570985008687907853269984665640564039457584007908834671663 : Nat.Prime
    115792089237316195423570985008687907853269984665640564039457584007908834671663 :=
  pratt _ 3 [2, 3, 7, 13441, 205115282021455665897114700593932402728804164701536103180137503955397371]
    (all_cons prime_2 (all_cons prime_3 (all_cons prime_7 (all_cons prime_13441 (all_cons prime_205115282021455665897114700593932402728804164701536103180137503955397371 all_nil)))))
    (by decide +kernel) (by decide +kernel) (by decide +kernel)

theorem prime_797 : Nat.Prime 797 := by norm_num

theorem prime_19 : Nat.Prime 19 := by norm_num

theorem prime_41 : Nat.Prime 41 := by norm_num

theorem prime_9349 : Nat.Prime
    9349 :=
  pratt _ 2 [2, 2, 3, 19, 41]
    (all_cons prime_2 (all_cons prime_2 (all_cons prime_3 (all_cons prime_19 (all_cons prime_41 all_nil)))))
    (by decide +kernel) (by decide +kernel) (by decide +kernel)

theorem prime_44706919 : Nat.Prime
    44706919 :=
  pratt _ 6 [2, 3, 797, 9349]
    (all_cons prime_2 (all_cons prime_3 (all_cons prime_797 (all_cons prime_9349 all_nil))))
    (by decide +kernel) (by decide +kernel) (by decide +kernel)

theorem prime_113 : Nat.Prime 113 := by norm_num

theorem prime_120233 : Nat.Prime
    120233 :=
  pratt _ 3 [2, 2, 2, 7, 19, 113]
    (all_cons prime_2 (all_cons prime_2 (all_cons prime_2 (all_cons prime_7 (all_cons prime_19 (all_cons prime_113 all_nil))))))
    (by decide +kernel) (by decide +kernel) (by decide +kernel)

theorem prime_17 : Nat.Prime 17 := by norm_num

theorem prime_4051 : Nat.Prime 4051 := by norm_num

theorem prime_59 : Nat.Prime 59 := by norm_num

theorem prime_174723607534414371449 : Nat.Prime
    174723607534414371449 :=
  pratt _ 3 [2, 2, 2, 17, 59, 4051, 120233, 44706919]
    (all_cons prime_2 (all_cons prime_2 (all_cons prime_2 (all_cons prime_17 (all_cons prime_59 (all_cons prime_4051 (all_cons prime_120233 (all_cons prime_44706919 all_nil))))))))
    (by decide +kernel) (by decide +kernel) (by decide +kernel)

theorem prime_97 : Nat.Prime 97 := by norm_num

theorem prime_2011 : Nat.Prime 2011 := by norm_num

theorem prime_4681609 : Nat.Prime
    4681609 :=
  pratt _ 23 [2, 2, 2, 3, 97, 2011]
    (all_cons prime_2 (all_cons prime_2 (all_cons prime_2 (all_cons prime_3 (all_cons prime_97 (all_cons prime_2011 all_nil))))))
    (by decide +kernel) (by decide +kernel) (by decide +kernel)

theorem prime_23 : Nat.Prime 23 := by norm_num

theorem prime_16699 : Nat.Prime
    16699 :=
  pratt _ 3 [2, 3, 11, 11, 23]
    (all_cons prime_2 (all_cons prime_3 (all_cons prime_11 (all_cons prime_11 (all_cons prime_23 all_nil)))))
    (by decide +kernel) (by decide +kernel) (by decide +kernel)

theorem prime_2861 : Nat.Prime 2861 := by norm_num

theorem prime_85831 : Nat.Prime
    85831 :=
  pratt _ 3 [2, 3, 5, 2861]
    (all_cons prime_2 (all_cons prime_3 (all_cons prime_5 (all_cons prime_2861 all_nil))))
    (by decide +kernel) (by decide +kernel) (by decide +kernel)

theorem prime_107361793816595537 : Nat.Prime
    107361793816595537 :=
  pratt _ 3 [2, 2, 2, 2, 16699, 85831, 4681609]
    (all_cons prime_2 (all_cons prime_2 (all_cons prime_2 (all_cons prime_2 (all_cons prime_16699 (all_cons prime_85831 (all_cons prime_4681609 all_nil)))))))
    (by decide +kernel) (by decide +kernel) (by decide +kernel)

theorem prime_149 : Nat.Prime 149 := by norm_num

theorem prime_109 : Nat.Prime 109 := by norm_num

theorem prime_293 : Nat.Prime 293 := by norm_num

theorem prime_2731 : Nat.Prime 2731 := by norm_num

theorem prime_305873 : Nat.Prime
    305873 :=
  pratt _ 3 [2, 2, 2, 2, 7, 2731]
    (all_cons prime_2 (all_cons prime_2 (all_cons prime_2 (all_cons prime_2 (all_cons prime_7 (all_cons prime_2731 all_nil))))))
    (by decide +kernel) (by decide +kernel) (by decide +kernel)

theorem prime_461 : Nat.Prime 461 := by norm_num

theorem prime_1871 : Nat.Prime 1871 := by norm_num

theorem prime_1627771 : Nat.Prime
    1627771 :=
  pratt _ 3 [2, 3, 5, 29, 1871]
    (all_cons prime_2 (all_cons prime_3 (all_cons prime_5 (all_cons prime_29 (all_cons prime_1871 all_nil)))))
    (by decide +kernel) (by decide +kernel) (by decide +kernel)

theorem prime_297159362677 : Nat.Prime
    297159362677 :=
  pratt _ 2 [2, 2, 3, 3, 11, 461, 1627771]
    (all_cons prime_2 (all_cons prime_2 (all_cons prime_3 (all_cons prime_3 (all_cons prime_11 (all_cons prime_461 (all_cons prime_1627771 all_nil)))))))
    (by decide +kernel) (by decide +kernel) (by decide +kernel)

theorem prime_1409 : Nat.Prime 1409 := by norm_num

theorem prime_28181 : Nat.Prime
    28181 :=
  pratt _ 2 [2, 2, 5, 1409]
    (all_cons prime_2 (all_cons prime_2 (all_cons prime_5 (all_cons prime_1409 all_nil))))
    (by decide +kernel) (by decide +kernel) (by decide +kernel)

theorem prime_545358713 : Nat.Prime
    545358713 :=
  pratt _ 5 [2, 2, 2, 41, 59, 28181]
    (all_cons prime_2 (all_cons prime_2 (all_cons prime_2 (all_cons prime_41 (all_cons prime_59 (all_cons prime_28181 all_nil))))))
    (by decide +kernel) (by decide +kernel) (by decide +kernel)

theorem prime_29047611873442575647497758179 : Nat.Prime
    29047611873442575647497758179 :=
  pratt _ 2 [2, 293, 305873, 545358713, 297159362677]
    (all_cons prime_2 (all_cons prime_293 (all_cons prime_305873 (all_cons prime_545358713 (all_cons prime_297159362677 all_nil)))))
    (by decide +kernel) (by decide +kernel) (by decide +kernel)

theorem prime_341948486974166000522343609283189 : Nat.Prime
    341948486974166000522343609283189 :=
  pratt _ 2 [2, 2, 3, 3, 3, 109, 29047611873442575647497758179]
    (all_cons prime_2 (all_cons prime_2 (all_cons prime_3 (all_cons prime_3 (all_cons prime_3 (all_cons prime_109 (all_cons prime_29047611873442575647497758179 all_nil)))))))
    (by decide +kernel) (by decide +kernel) (by decide +kernel)

theorem prime_631 : Nat.Prime 631 := by norm_num

theorem prime_115792089237316195423570985008687907852837564279074904382605163141518161494337 : Nat.Prime
    115792089237316195423570985008687907852837564279074904382605163141518161494337 :=
  pratt _ 7 [2, 2, 2, 2, 2, 2, 3, 149, 631, 107361793816595537, 174723607534414371449, 341948486974166000522343609283189]
    (all_cons prime_2 (all_cons prime_2 (all_cons prime_2 (all_cons prime_2 (all_cons prime_2 (all_cons prime_2 (all_cons prime_3 (all_cons prime_149 (all_cons prime_631 (all_cons prime_107361793816595537 (all_cons prime_174723607534414371449 (all_cons prime_341948486974166000522343609283189 all_nil))))))))))))
    (by decide +kernel) (by decide +kernel) (by decide +kernel)

theorem prime_257 : Nat.Prime 257 := by norm_num

theorem prime_641 : Nat.Prime 641 := by norm_num

theorem prime_65537 : Nat.Prime
    65537 :=
  pratt _ 3 [2, 2, 2, 2, 2, 2, 2, 2, 2, 2, 2, 2, 2, 2, 2, 2]
    (all_cons prime_2 (all_cons prime_2 (all_cons prime_2 (all_cons prime_2 (all_cons prime_2 (all_cons prime_2 (all_cons prime_2 (all_cons prime_2 (all_cons prime_2 (all_cons prime_2 (all_cons prime_2 (all_cons prime_2 (all_cons prime_2 (all_cons prime_2 (all_cons prime_2 (all_cons prime_2 all_nil))))))))))))))))
    (by decide +kernel) (by decide +kernel) (by decide +kernel)

theorem prime_727 : Nat.Prime 727 := by norm_num

theorem prime_17449 : Nat.Prime
    17449 :=
  pratt _ 14 [2, 2, 2, 3, 727]
    (all_cons prime_2 (all_cons prime_2 (all_cons prime_2 (all_cons prime_3 (all_cons prime_727 all_nil)))))
    (by decide +kernel) (by decide +kernel) (by decide +kernel)

theorem prime_6700417 : Nat.Prime
    6700417 :=
  pratt _ 5 [2, 2, 2, 2, 2, 2, 2, 3, 17449]
    (all_cons prime_2 (all_cons prime_2 (all_cons prime_2 (all_cons prime_2 (all_cons prime_2 (all_cons prime_2 (all_cons prime_2 (all_cons prime_3 (all_cons prime_17449 all_nil)))))))))
    (by decide +kernel) (by decide +kernel) (by decide +kernel)

theorem prime_2411 : Nat.Prime 2411 := by norm_num

theorem prime_197 : Nat.Prime 197 := by norm_num

theorem prime_173 : Nat.Prime 173 := by norm_num

theorem prime_3677 : Nat.Prime 3677 := by norm_num

theorem prime_66417393611 : Nat.Prime
    66417393611 :=
  pratt _ 6 [2, 5, 53, 173, 197, 3677]
    (all_cons prime_2 (all_cons prime_5 (all_cons prime_53 (all_cons prime_173 (all_cons prime_197 (all_cons prime_3677 all_nil))))))
    (by decide +kernel) (by decide +kernel) (by decide +kernel)

theorem prime_11290956913871 : Nat.Prime
    11290956913871 :=
  pratt _ 13 [2, 5, 17, 66417393611]
    (all_cons prime_2 (all_cons prime_5 (all_cons prime_17 (all_cons prime_66417393611 all_nil))))
    (by decide +kernel) (by decide +kernel) (by decide +kernel)

theorem prime_4349 : Nat.Prime 4349 := by norm_num

theorem prime_78283 : Nat.Prime
    78283 :=
  pratt _ 3 [2, 3, 3, 4349]
    (all_cons prime_2 (all_cons prime_3 (all_cons prime_3 (all_cons prime_4349 all_nil))))
    (by decide +kernel) (by decide +kernel) (by decide +kernel)

theorem prime_757 : Nat.Prime 757 := by norm_num

theorem prime_18169 : Nat.Prime
    18169 :=
  pratt _ 11 [2, 2, 2, 3, 757]
    (all_cons prime_2 (all_cons prime_2 (all_cons prime_2 (all_cons prime_3 (all_cons prime_757 all_nil)))))
    (by decide +kernel) (by decide +kernel) (by decide +kernel)

theorem prime_313 : Nat.Prime 313 := by norm_num

theorem prime_704251 : Nat.Prime
    704251 :=
  pratt _ 2 [2, 3, 3, 5, 5, 5, 313]
    (all_cons prime_2 (all_cons prime_3 (all_cons prime_3 (all_cons prime_5 (all_cons prime_5 (all_cons prime_5 (all_cons prime_313 all_nil)))))))
    (by decide +kernel) (by decide +kernel) (by decide +kernel)

theorem prime_46076956964474543 : Nat.Prime
    46076956964474543 :=
  pratt _ 5 [2, 23, 18169, 78283, 704251]
    (all_cons prime_2 (all_cons prime_23 (all_cons prime_18169 (all_cons prime_78283 (all_cons prime_704251 all_nil)))))
    (by decide +kernel) (by decide +kernel) (by decide +kernel)

theorem prime_107 : Nat.Prime 107 := by norm_num

theorem prime_3769 : Nat.Prime 3769 := by norm_num

theorem prime_204061199 : Nat.Prime
    204061199 :=
  pratt _ 11 [2, 11, 23, 107, 3769]
    (all_cons prime_2 (all_cons prime_11 (all_cons prime_23 (all_cons prime_107 (all_cons prime_3769 all_nil)))))
    (by decide +kernel) (by decide +kernel) (by decide +kernel)

theorem prime_34282281433 : Nat.Prime
    34282281433 :=
  pratt _ 17 [2, 2, 2, 3, 7, 204061199]
    (all_cons prime_2 (all_cons prime_2 (all_cons prime_2 (all_cons prime_3 (all_cons prime_7 (all_cons prime_204061199 all_nil))))))
    (by decide +kernel) (by decide +kernel) (by decide +kernel)

theorem prime_774023187263532362759620327192479577272145303 : Nat.Prime
    774023187263532362759620327192479577272145303 :=
  pratt _ 3 [2, 3, 3, 2411, 34282281433, 11290956913871, 46076956964474543]
    (all_cons prime_2 (all_cons prime_3 (all_cons prime_3 (all_cons prime_2411 (all_cons prime_34282281433 (all_cons prime_11290956913871 (all_cons prime_46076956964474543 all_nil)))))))
    (by decide +kernel) (by decide +kernel) (by decide +kernel)

theorem prime_835945042244614951780389953367877943453916927241 : Nat.Prime
    835945042244614951780389953367877943453916927241 :=
  pratt _ 11 [2, 2, 2, 3, 3, 3, 5, 774023187263532362759620327192479577272145303]
    (all_cons prime_2 (all_cons prime_2 (all_cons prime_2 (all_cons prime_3 (all_cons prime_3 (all_cons prime_3 (all_cons prime_5 (all_cons prime_774023187263532362759620327192479577272145303 all_nil))))))))
    (by decide +kernel) (by decide +kernel) (by decide +kernel)

theorem prime_1531 : Nat.Prime 1531 := by norm_num

theorem prime_661 : Nat.Prime 661 := by norm_num

theorem prime_490463 : Nat.Prime
    490463 :=
  pratt _ 14 [2, 7, 53, 661]
    (all_cons prime_2 (all_cons prime_7 (all_cons prime_53 (all_cons prime_661 all_nil))))
    (by decide +kernel) (by decide +kernel) (by decide +kernel)

theorem prime_115792089210356248762697446949407573530086143415290314195533631308867097853951 : Nat.Prime
    115792089210356248762697446949407573530086143415290314195533631308867097853951 :=
  pratt _ 6 [2, 3, 5, 5, 17, 257, 641, 1531, 65537, 490463, 6700417, 835945042244614951780389953367877943453916927241]
    (all_cons prime_2 (all_cons prime_3 (all_cons prime_5 (all_cons prime_5 (all_cons prime_17 (all_cons prime_257 (all_cons prime_641 (all_cons prime_1531 (all_cons prime_65537 (all_cons prime_490463 (all_cons prime_6700417 (all_cons prime_835945042244614951780389953367877943453916927241 all_nil))))))))))))
    (by decide +kernel) (by decide +kernel) (by decide +kernel)

theorem prime_131 : Nat.Prime 131 := by norm_num

theorem prime_71 : Nat.Prime 71 := by norm_num

theorem prime_43 : Nat.Prime 43 := by norm_num

theorem prime_37 : Nat.Prime 37 := by norm_num

theorem prime_9547 : Nat.Prime
    9547 :=
  pratt _ 2 [2, 3, 37, 43]
    (all_cons prime_2 (all_cons prime_3 (all_cons prime_37 (all_cons prime_43 all_nil))))
    (by decide +kernel) (by decide +kernel) (by decide +kernel)

theorem prime_38189 : Nat.Prime
    38189 :=
  pratt _ 2 [2, 2, 9547]
    (all_cons prime_2 (all_cons prime_2 (all_cons prime_9547 all_nil)))
    (by decide +kernel) (by decide +kernel) (by decide +kernel)

theorem prime_3407 : Nat.Prime 3407 := by norm_num

theorem prime_263 : Nat.Prime 263 := by norm_num

theorem prime_126241 : Nat.Prime
    126241 :=
  pratt _ 7 [2, 2, 2, 2, 2, 3, 5, 263]
    (all_cons prime_2 (all_cons prime_2 (all_cons prime_2 (all_cons prime_2 (all_cons prime_2 (all_cons prime_3 (all_cons prime_5 (all_cons prime_263 all_nil))))))))
    (by decide +kernel) (by decide +kernel) (by decide +kernel)

theorem prime_337 : Nat.Prime 337 := by norm_num

theorem prime_104471 : Nat.Prime
    104471 :=
  pratt _ 11 [2, 5, 31, 337]
    (all_cons prime_2 (all_cons prime_5 (all_cons prime_31 (all_cons prime_337 all_nil))))
    (by decide +kernel) (by decide +kernel) (by decide +kernel)

theorem prime_3969899 : Nat.Prime
    3969899 :=
  pratt _ 2 [2, 19, 104471]
    (all_cons prime_2 (all_cons prime_19 (all_cons prime_104471 all_nil)))
    (by decide +kernel) (by decide +kernel) (by decide +kernel)

theorem prime_1002328039319 : Nat.Prime
    1002328039319 :=
  pratt _ 19 [2, 126241, 3969899]
    (all_cons prime_2 (all_cons prime_126241 (all_cons prime_3969899 all_nil)))
    (by decide +kernel) (by decide +kernel) (by decide +kernel)

theorem prime_16879 : Nat.Prime
    16879 :=
  pratt _ 3 [2, 3, 29, 97]
    (all_cons prime_2 (all_cons prime_3 (all_cons prime_29 (all_cons prime_97 all_nil))))
    (by decide +kernel) (by decide +kernel) (by decide +kernel)

theorem prime_1297 : Nat.Prime 1297 := by norm_num

theorem prime_155317 : Nat.Prime
    155317 :=
  pratt _ 5 [2, 2, 3, 7, 43, 43]
    (all_cons prime_2 (all_cons prime_2 (all_cons prime_3 (all_cons prime_7 (all_cons prime_43 (all_cons prime_43 all_nil))))))
    (by decide +kernel) (by decide +kernel) (by decide +kernel)

theorem prime_191039911 : Nat.Prime
    191039911 :=
  pratt _ 3 [2, 3, 5, 41, 155317]
    (all_cons prime_2 (all_cons prime_3 (all_cons prime_5 (all_cons prime_41 (all_cons prime_155317 all_nil)))))
    (by decide +kernel) (by decide +kernel) (by decide +kernel)

theorem prime_3023 : Nat.Prime 3023 := by norm_num

theorem prime_127 : Nat.Prime 127 := by norm_num

theorem prime_208150935158385979 : Nat.Prime
    208150935158385979 :=
  pratt _ 2 [2, 3, 11, 43, 127, 3023, 191039911]
    (all_cons prime_2 (all_cons prime_3 (all_cons prime_11 (all_cons prime_43 (all_cons prime_127 (all_cons prime_3023 (all_cons prime_191039911 all_nil)))))))
    (by decide +kernel) (by decide +kernel) (by decide +kernel)

theorem prime_2624747550333869278416773953 : Nat.Prime
    2624747550333869278416773953 :=
  pratt _ 7 [2, 2, 2, 2, 2, 2, 3, 3, 1297, 16879, 208150935158385979]
    (all_cons prime_2 (all_cons prime_2 (all_cons prime_2 (all_cons prime_2 (all_cons prime_2 (all_cons prime_2 (all_cons prime_3 (all_cons prime_3 (all_cons prime_1297 (all_cons prime_16879 (all_cons prime_208150935158385979 all_nil)))))))))))
    (by decide +kernel) (by decide +kernel) (by decide +kernel)

theorem prime_373 : Nat.Prime 373 := by norm_num

theorem prime_311 : Nat.Prime 311 := by norm_num

theorem prime_311245691 : Nat.Prime
    311245691 :=
  pratt _ 2 [2, 5, 7, 17, 29, 29, 311]
    (all_cons prime_2 (all_cons prime_5 (all_cons prime_7 (all_cons prime_17 (all_cons prime_29 (all_cons prime_29 (all_cons prime_311 all_nil)))))))
    (by decide +kernel) (by decide +kernel) (by decide +kernel)

theorem prime_622491383 : Nat.Prime
    622491383 :=
  pratt _ 5 [2, 311245691]
    (all_cons prime_2 (all_cons prime_311245691 all_nil))
    (by decide +kernel) (by decide +kernel) (by decide +kernel)

theorem prime_1201 : Nat.Prime 1201 := by norm_num

theorem prime_229 : Nat.Prime 229 := by norm_num

theorem prime_9350987 : Nat.Prime
    9350987 :=
  pratt _ 2 [2, 17, 229, 1201]
    (all_cons prime_2 (all_cons prime_17 (all_cons prime_229 (all_cons prime_1201 all_nil))))
    (by decide +kernel) (by decide +kernel) (by decide +kernel)

theorem prime_187019741 : Nat.Prime
    187019741 :=
  pratt _ 2 [2, 2, 5, 9350987]
    (all_cons prime_2 (all_cons prime_2 (all_cons prime_5 (all_cons prime_9350987 all_nil))))
    (by decide +kernel) (by decide +kernel) (by decide +kernel)

theorem prime_115792089210356248762697446949407573529996955224135760342422259061068512044369 : Nat.Prime
    115792089210356248762697446949407573529996955224135760342422259061068512044369 :=
  pratt _ 7 [2, 2, 2, 2, 3, 71, 131, 373, 3407, 17449, 38189, 187019741, 622491383, 1002328039319, 2624747550333869278416773953]
    (all_cons prime_2 (all_cons prime_2 (all_cons prime_2 (all_cons prime_2 (all_cons prime_3 (all_cons prime_71 (all_cons prime_131 (all_cons prime_373 (all_cons prime_3407 (all_cons prime_17449 (all_cons prime_38189 (all_cons prime_187019741 (all_cons prime_622491383 (all_cons prime_1002328039319 (all_cons prime_2624747550333869278416773953 all_nil)))))))))))))))
    (by decide +kernel) (by decide +kernel) (by decide +kernel)

theorem prime_2531 : Nat.Prime 2531 := by norm_num

theorem prime_19267 : Nat.Prime
    19267 :=
  pratt _ 3 [2, 3, 13, 13, 19]
    (all_cons prime_2 (all_cons prime_3 (all_cons prime_13 (all_cons prime_13 (all_cons prime_19 all_nil)))))
    (by decide +kernel) (by decide +kernel) (by decide +kernel)

theorem prime_115603 : Nat.Prime
    115603 :=
  pratt _ 2 [2, 3, 19267]
    (all_cons prime_2 (all_cons prime_3 (all_cons prime_19267 all_nil)))
    (by decide +kernel) (by decide +kernel) (by decide +kernel)

theorem prime_3767 : Nat.Prime 3767 := by norm_num

theorem prime_1197907 : Nat.Prime
    1197907 :=
  pratt _ 3 [2, 3, 53, 3767]
    (all_cons prime_2 (all_cons prime_3 (all_cons prime_53 (all_cons prime_3767 all_nil))))
    (by decide +kernel) (by decide +kernel) (by decide +kernel)

theorem prime_25741 : Nat.Prime
    25741 :=
  pratt _ 6 [2, 2, 3, 3, 5, 11, 13]
    (all_cons prime_2 (all_cons prime_2 (all_cons prime_3 (all_cons prime_3 (all_cons prime_5 (all_cons prime_11 (all_cons prime_13 all_nil)))))))
    (by decide +kernel) (by decide +kernel) (by decide +kernel)

theorem prime_772231 : Nat.Prime
    772231 :=
  pratt _ 6 [2, 3, 5, 25741]
    (all_cons prime_2 (all_cons prime_3 (all_cons prime_5 (all_cons prime_25741 all_nil))))
    (by decide +kernel) (by decide +kernel) (by decide +kernel)

theorem prime_509 : Nat.Prime 509 := by norm_num

theorem prime_413527 : Nat.Prime
    413527 :=
  pratt _ 3 [2, 3, 41, 41, 41]
    (all_cons prime_2 (all_cons prime_3 (all_cons prime_41 (all_cons prime_41 (all_cons prime_41 all_nil)))))
    (by decide +kernel) (by decide +kernel) (by decide +kernel)

theorem prime_325086459374267 : Nat.Prime
    325086459374267 :=
  pratt _ 2 [2, 509, 413527, 772231]
    (all_cons prime_2 (all_cons prime_509 (all_cons prime_413527 (all_cons prime_772231 all_nil))))
    (by decide +kernel) (by decide +kernel) (by decide +kernel)

theorem prime_977 : Nat.Prime 977 := by norm_num

theorem prime_6942563 : Nat.Prime
    6942563 :=
  pratt _ 2 [2, 11, 17, 19, 977]
    (all_cons prime_2 (all_cons prime_11 (all_cons prime_17 (all_cons prime_19 (all_cons prime_977 all_nil)))))
    (by decide +kernel) (by decide +kernel) (by decide +kernel)

theorem prime_41655379 : Nat.Prime
    41655379 :=
  pratt _ 2 [2, 3, 6942563]
    (all_cons prime_2 (all_cons prime_3 (all_cons prime_6942563 all_nil)))
    (by decide +kernel) (by decide +kernel) (by decide +kernel)

theorem prime_22160661629 : Nat.Prime
    22160661629 :=
  pratt _ 3 [2, 2, 7, 19, 41655379]
    (all_cons prime_2 (all_cons prime_2 (all_cons prime_7 (all_cons prime_19 (all_cons prime_41655379 all_nil)))))
    (by decide +kernel) (by decide +kernel) (by decide +kernel)

theorem prime_8999194758858563409123804352480028797519453 : Nat.Prime
    8999194758858563409123804352480028797519453 :=
  pratt _ 2 [2, 2, 3, 3, 3, 3, 11, 2531, 115603, 1197907, 22160661629, 325086459374267]
    (all_cons prime_2 (all_cons prime_2 (all_cons prime_3 (all_cons prime_3 (all_cons prime_3 (all_cons prime_3 (all_cons prime_11 (all_cons prime_2531 (all_cons prime_115603 (all_cons prime_1197907 (all_cons prime_22160661629 (all_cons prime_325086459374267 all_nil))))))))))))
    (by decide +kernel) (by decide +kernel) (by decide +kernel)

theorem prime_463 : Nat.Prime 463 := by norm_num

theorem prime_829 : Nat.Prime 829 := by norm_num

theorem prime_14923 : Nat.Prime
    14923 :=
  pratt _ 2 [2, 3, 3, 829]
    (all_cons prime_2 (all_cons prime_3 (all_cons prime_3 (all_cons prime_829 all_nil))))
    (by decide +kernel) (by decide +kernel) (by decide +kernel)

theorem prime_1973 : Nat.Prime 1973 := by norm_num

theorem prime_6229 : Nat.Prime
    6229 :=
  pratt _ 2 [2, 2, 3, 3, 173]
    (all_cons prime_2 (all_cons prime_2 (all_cons prime_3 (all_cons prime_3 (all_cons prime_173 all_nil)))))
    (by decide +kernel) (by decide +kernel) (by decide +kernel)

theorem prime_24917 : Nat.Prime
    24917 :=
  pratt _ 2 [2, 2, 6229]
    (all_cons prime_2 (all_cons prime_2 (all_cons prime_6229 all_nil)))
    (by decide +kernel) (by decide +kernel) (by decide +kernel)

theorem prime_149503 : Nat.Prime
    149503 :=
  pratt _ 3 [2, 3, 24917]
    (all_cons prime_2 (all_cons prime_3 (all_cons prime_24917 all_nil)))
    (by decide +kernel) (by decide +kernel) (by decide +kernel)

theorem prime_897019 : Nat.Prime
    897019 :=
  pratt _ 2 [2, 3, 149503]
    (all_cons prime_2 (all_cons prime_3 (all_cons prime_149503 all_nil)))
    (by decide +kernel) (by decide +kernel) (by decide +kernel)

theorem prime_417677162933 : Nat.Prime
    417677162933 :=
  pratt _ 2 [2, 2, 59, 1973, 897019]
    (all_cons prime_2 (all_cons prime_2 (all_cons prime_59 (all_cons prime_1973 (all_cons prime_897019 all_nil)))))
    (by decide +kernel) (by decide +kernel) (by decide +kernel)

theorem prime_89 : Nat.Prime 89 := by norm_num

theorem prime_539204044132271846773 : Nat.Prime
    539204044132271846773 :=
  pratt _ 5 [2, 2, 3, 3, 3, 3, 3, 89, 14923, 417677162933]
    (all_cons prime_2 (all_cons prime_2 (all_cons prime_3 (all_cons prime_3 (all_cons prime_3 (all_cons prime_3 (all_cons prime_3 (all_cons prime_89 (all_cons prime_14923 (all_cons prime_417677162933 all_nil))))))))))
    (by decide +kernel) (by decide +kernel) (by decide +kernel)

theorem prime_28948022309329048855892746252171976963363056481941560715954676764349967630337 : Nat.Prime
    28948022309329048855892746252171976963363056481941560715954676764349967630337 :=
  pratt _ 5 [2, 2, 2, 2, 2, 2, 2, 2, 2, 2, 2, 2, 2, 2, 2, 2, 2, 2, 2, 2, 2, 2, 2, 2, 2, 2, 2, 2, 2, 2, 2, 2, 3, 463, 539204044132271846773, 8999194758858563409123804352480028797519453]
    (all_cons prime_2 (all_cons prime_2 (all_cons prime_2 (all_cons prime_2 (all_cons prime_2 (all_cons prime_2 (all_cons prime_2 (all_cons prime_2 (all_cons prime_2 (all_cons prime_2 (all_cons prime_2 (all_cons prime_2 (all_cons prime_2 (all_cons prime_2 (all_cons prime_2 (all_cons prime_2 (all_cons prime_2 (all_cons prime_2 (all_cons prime_2 (all_cons prime_2 (all_cons prime_2 (all_cons prime_2 (all_cons prime_2 (all_cons prime_2 (all_cons prime_2 (all_cons prime_2 (all_cons prime_2 (all_cons prime_2 (all_cons prime_2 (all_cons prime_2 (all_cons prime_2 (all_cons prime_2 (all_cons prime_3 (all_cons prime_463 (all_cons prime_539204044132271846773 (all_cons prime_8999194758858563409123804352480028797519453 all_nil))))))))))))))))))))))))))))))))))))
    (by decide +kernel) (by decide +kernel) (by decide +kernel)

theorem prime_31649 : Nat.Prime
    31649 :=
  pratt _ 3 [2, 2, 2, 2, 2, 23, 43]
    (all_cons prime_2 (all_cons prime_2 (all_cons prime_2 (all_cons prime_2 (all_cons prime_2 (all_cons prime_23 (all_cons prime_43 all_nil)))))))
    (by decide +kernel) (by decide +kernel) (by decide +kernel)

theorem prime_3037 : Nat.Prime 3037 := by norm_num

theorem prime_12149 : Nat.Prime
    12149 :=
  pratt _ 2 [2, 2, 3037]
    (all_cons prime_2 (all_cons prime_2 (all_cons prime_3037 all_nil)))
    (by decide +kernel) (by decide +kernel) (by decide +kernel)

theorem prime_5239247429827 : Nat.Prime
    5239247429827 :=
  pratt _ 2 [2, 3, 3, 757, 12149, 31649]
    (all_cons prime_2 (all_cons prime_3 (all_cons prime_3 (all_cons prime_757 (all_cons prime_12149 (all_cons prime_31649 all_nil))))))
    (by decide +kernel) (by decide +kernel) (by decide +kernel)

theorem prime_294793 : Nat.Prime
    294793 :=
  pratt _ 10 [2, 2, 2, 3, 71, 173]
    (all_cons prime_2 (all_cons prime_2 (all_cons prime_2 (all_cons prime_3 (all_cons prime_71 (all_cons prime_173 all_nil))))))
    (by decide +kernel) (by decide +kernel) (by decide +kernel)

theorem prime_6091 : Nat.Prime
    6091 :=
  pratt _ 7 [2, 3, 5, 7, 29]
    (all_cons prime_2 (all_cons prime_3 (all_cons prime_5 (all_cons prime_7 (all_cons prime_29 all_nil)))))
    (by decide +kernel) (by decide +kernel) (by decide +kernel)

theorem prime_5701177 : Nat.Prime
    5701177 :=
  pratt _ 7 [2, 2, 2, 3, 3, 13, 6091]
    (all_cons prime_2 (all_cons prime_2 (all_cons prime_2 (all_cons prime_3 (all_cons prime_3 (all_cons prime_13 (all_cons prime_6091 all_nil)))))))
    (by decide +kernel) (by decide +kernel) (by decide +kernel)

theorem prime_399082391 : Nat.Prime
    399082391 :=
  pratt _ 7 [2, 5, 7, 5701177]
    (all_cons prime_2 (all_cons prime_5 (all_cons prime_7 (all_cons prime_5701177 all_nil))))
    (by decide +kernel) (by decide +kernel) (by decide +kernel)

theorem prime_827 : Nat.Prime 827 := by norm_num

theorem prime_2557 : Nat.Prime 2557 := by norm_num

theorem prime_4229279 : Nat.Prime
    4229279 :=
  pratt _ 13 [2, 827, 2557]
    (all_cons prime_2 (all_cons prime_827 (all_cons prime_2557 all_nil)))
    (by decide +kernel) (by decide +kernel) (by decide +kernel)

theorem prime_10427374428728808478656897599072717 : Nat.Prime
    10427374428728808478656897599072717 :=
  pratt _ 2 [2, 2, 294793, 4229279, 399082391, 5239247429827]
    (all_cons prime_2 (all_cons prime_2 (all_cons prime_294793 (all_cons prime_4229279 (all_cons prime_399082391 (all_cons prime_5239247429827 all_nil))))))
    (by decide +kernel) (by decide +kernel) (by decide +kernel)

theorem prime_1709 : Nat.Prime 1709 := by norm_num

theorem prime_68477 : Nat.Prime
    68477 :=
  pratt _ 2 [2, 2, 17, 19, 53]
    (all_cons prime_2 (all_cons prime_2 (all_cons prime_17 (all_cons prime_19 (all_cons prime_53 all_nil)))))
    (by decide +kernel) (by decide +kernel) (by decide +kernel)

theorem prime_958679 : Nat.Prime
    958679 :=
  pratt _ 7 [2, 7, 68477]
    (all_cons prime_2 (all_cons prime_7 (all_cons prime_68477 all_nil)))
    (by decide +kernel) (by decide +kernel) (by decide +kernel)

theorem prime_359 : Nat.Prime 359 := by norm_num

theorem prime_4129989133 : Nat.Prime
    4129989133 :=
  pratt _ 5 [2, 2, 3, 359, 958679]
    (all_cons prime_2 (all_cons prime_2 (all_cons prime_3 (all_cons prime_359 (all_cons prime_958679 all_nil)))))
    (by decide +kernel) (by decide +kernel) (by decide +kernel)

theorem prime_241 : Nat.Prime 241 := by norm_num

theorem prime_125803 : Nat.Prime
    125803 :=
  pratt _ 3 [2, 3, 3, 29, 241]
    (all_cons prime_2 (all_cons prime_3 (all_cons prime_3 (all_cons prime_29 (all_cons prime_241 all_nil)))))
    (by decide +kernel) (by decide +kernel) (by decide +kernel)

theorem prime_2012849 : Nat.Prime
    2012849 :=
  pratt _ 3 [2, 2, 2, 2, 125803]
    (all_cons prime_2 (all_cons prime_2 (all_cons prime_2 (all_cons prime_2 (all_cons prime_125803 all_nil)))))
    (by decide +kernel) (by decide +kernel) (by decide +kernel)

theorem prime_4025699 : Nat.Prime
    4025699 :=
  pratt _ 2 [2, 2012849]
    (all_cons prime_2 (all_cons prime_2012849 all_nil))
    (by decide +kernel) (by decide +kernel) (by decide +kernel)

theorem prime_80513981 : Nat.Prime
    80513981 :=
  pratt _ 2 [2, 2, 5, 4025699]
    (all_cons prime_2 (all_cons prime_2 (all_cons prime_5 (all_cons prime_4025699 all_nil))))
    (by decide +kernel) (by decide +kernel) (by decide +kernel)

theorem prime_5247740253619 : Nat.Prime
    5247740253619 :=
  pratt _ 2 [2, 3, 3, 3, 17, 71, 80513981]
    (all_cons prime_2 (all_cons prime_3 (all_cons prime_3 (all_cons prime_3 (all_cons prime_17 (all_cons prime_71 (all_cons prime_80513981 all_nil)))))))
    (by decide +kernel) (by decide +kernel) (by decide +kernel)

theorem prime_1690502597179744445941507 : Nat.Prime
    1690502597179744445941507 :=
  pratt _ 2 [2, 3, 13, 4129989133, 5247740253619]
    (all_cons prime_2 (all_cons prime_3 (all_cons prime_13 (all_cons prime_4129989133 (all_cons prime_5247740253619 all_nil)))))
    (by decide +kernel) (by decide +kernel) (by decide +kernel)

theorem prime_1381 : Nat.Prime 1381 := by norm_num

theorem prime_24859 : Nat.Prime
    24859 :=
  pratt _ 2 [2, 3, 3, 1381]
    (all_cons prime_2 (all_cons prime_3 (all_cons prime_3 (all_cons prime_1381 all_nil))))
    (by decide +kernel) (by decide +kernel) (by decide +kernel)

theorem prime_28948022309329048855892746252171976963363056481941647379679742748393362948097 : Nat.Prime
    28948022309329048855892746252171976963363056481941647379679742748393362948097 :=
  pratt _ 5 [2, 2, 2, 2, 2, 2, 2, 2, 2, 2, 2, 2, 2, 2, 2, 2, 2, 2, 2, 2, 2, 2, 2, 2, 2, 2, 2, 2, 2, 2, 2, 2, 3, 3, 1709, 24859, 1690502597179744445941507, 10427374428728808478656897599072717]
    (all_cons prime_2 (all_cons prime_2 (all_cons prime_2 (all_cons prime_2 (all_cons prime_2 (all_cons prime_2 (all_cons prime_2 (all_cons prime_2 (all_cons prime_2 (all_cons prime_2 (all_cons prime_2 (all_cons prime_2 (all_cons prime_2 (all_cons prime_2 (all_cons prime_2 (all_cons prime_2 (all_cons prime_2 (all_cons prime_2 (all_cons prime_2 (all_cons prime_2 (all_cons prime_2 (all_cons prime_2 (all_cons prime_2 (all_cons prime_2 (all_cons prime_2 (all_cons prime_2 (all_cons prime_2 (all_cons prime_2 (all_cons prime_2 (all_cons prime_2 (all_cons prime_2 (all_cons prime_2 (all_cons prime_3 (all_cons prime_3 (all_cons prime_1709 (all_cons prime_24859 (all_cons prime_1690502597179744445941507 (all_cons prime_10427374428728808478656897599072717 all_nil))))))))))))))))))))))))))))))))))))))
    (by decide +kernel) (by decide +kernel) (by decide +kernel)

theorem prime_353 : Nat.Prime 353 := by norm_num

theorem prime_569003 : Nat.Prime
    569003 :=
  pratt _ 2 [2, 7, 97, 419]
    (all_cons prime_2 (all_cons prime_7 (all_cons prime_97 (all_cons prime_419 all_nil))))
    (by decide +kernel) (by decide +kernel) (by decide +kernel)

theorem prime_2437 : Nat.Prime 2437 := by norm_num

theorem prime_2773320623 : Nat.Prime
    2773320623 :=
  pratt _ 5 [2, 2437, 569003]
    (all_cons prime_2 (all_cons prime_2437 (all_cons prime_569003 all_nil)))
    (by decide +kernel) (by decide +kernel) (by decide +kernel)

theorem prime_72106336199 : Nat.Prime
    72106336199 :=
  pratt _ 7 [2, 13, 2773320623]
    (all_cons prime_2 (all_cons prime_13 (all_cons prime_2773320623 all_nil)))
    (by decide +kernel) (by decide +kernel) (by decide +kernel)

theorem prime_47 : Nat.Prime 47 := by norm_num

theorem prime_991 : Nat.Prime 991 := by norm_num

theorem prime_8574133 : Nat.Prime
    8574133 :=
  pratt _ 2 [2, 2, 3, 7, 103, 991]
    (all_cons prime_2 (all_cons prime_2 (all_cons prime_3 (all_cons prime_7 (all_cons prime_103 (all_cons prime_991 all_nil))))))
    (by decide +kernel) (by decide +kernel) (by decide +kernel)

theorem prime_1919519569386763 : Nat.Prime
    1919519569386763 :=
  pratt _ 2 [2, 3, 7, 19, 47, 47, 127, 8574133]
    (all_cons prime_2 (all_cons prime_3 (all_cons prime_7 (all_cons prime_19 (all_cons prime_47 (all_cons prime_47 (all_cons prime_127 (all_cons prime_8574133 all_nil))))))))
    (by decide +kernel) (by decide +kernel) (by decide +kernel)

theorem prime_83 : Nat.Prime 83 := by norm_num

theorem prime_9463 : Nat.Prime
    9463 :=
  pratt _ 3 [2, 3, 19, 83]
    (all_cons prime_2 (all_cons prime_3 (all_cons prime_19 (all_cons prime_83 all_nil))))
    (by decide +kernel) (by decide +kernel) (by decide +kernel)

theorem prime_37853 : Nat.Prime
    37853 :=
  pratt _ 2 [2, 2, 9463]
    (all_cons prime_2 (all_cons prime_2 (all_cons prime_9463 all_nil)))
    (by decide +kernel) (by decide +kernel) (by decide +kernel)

theorem prime_75707 : Nat.Prime
    75707 :=
  pratt _ 2 [2, 37853]
    (all_cons prime_2 (all_cons prime_37853 all_nil))
    (by decide +kernel) (by decide +kernel) (by decide +kernel)

theorem prime_75445702479781427272750846543864801 : Nat.Prime
    75445702479781427272750846543864801 :=
  pratt _ 7 [2, 2, 2, 2, 2, 3, 3, 5, 5, 75707, 72106336199, 1919519569386763]
    (all_cons prime_2 (all_cons prime_2 (all_cons prime_2 (all_cons prime_2 (all_cons prime_2 (all_cons prime_3 (all_cons prime_3 (all_cons prime_5 (all_cons prime_5 (all_cons prime_75707 (all_cons prime_72106336199 (all_cons prime_1919519569386763 all_nil))))))))))))
    (by decide +kernel) (by decide +kernel) (by decide +kernel)

theorem prime_132049 : Nat.Prime
    132049 :=
  pratt _ 26 [2, 2, 2, 2, 3, 3, 7, 131]
    (all_cons prime_2 (all_cons prime_2 (all_cons prime_2 (all_cons prime_2 (all_cons prime_3 (all_cons prime_3 (all_cons prime_7 (all_cons prime_131 all_nil))))))))
    (by decide +kernel) (by decide +kernel) (by decide +kernel)

theorem prime_1723 : Nat.Prime 1723 := by norm_num

theorem prime_430751 : Nat.Prime
    430751 :=
  pratt _ 17 [2, 5, 5, 5, 1723]
    (all_cons prime_2 (all_cons prime_5 (all_cons prime_5 (all_cons prime_5 (all_cons prime_1723 all_nil)))))
    (by decide +kernel) (by decide +kernel) (by decide +kernel)

theorem prime_4153 : Nat.Prime 4153 := by norm_num

theorem prime_223 : Nat.Prime 223 := by norm_num

theorem prime_31757755568855353 : Nat.Prime
    31757755568855353 :=
  pratt _ 10 [2, 2, 2, 3, 31, 107, 223, 4153, 430751]
    (all_cons prime_2 (all_cons prime_2 (all_cons prime_2 (all_cons prime_3 (all_cons prime_31 (all_cons prime_107 (all_cons prime_223 (all_cons prime_4153 (all_cons prime_430751 all_nil)))))))))
    (by decide +kernel) (by decide +kernel) (by decide +kernel)

theorem prime_487 : Nat.Prime 487 := by norm_num

theorem prime_57467 : Nat.Prime
    57467 :=
  pratt _ 2 [2, 59, 487]
    (all_cons prime_2 (all_cons prime_59 (all_cons prime_487 all_nil)))
    (by decide +kernel) (by decide +kernel) (by decide +kernel)

theorem prime_3727 : Nat.Prime 3727 := by norm_num

theorem prime_1923133 : Nat.Prime
    1923133 :=
  pratt _ 2 [2, 2, 3, 43, 3727]
    (all_cons prime_2 (all_cons prime_2 (all_cons prime_3 (all_cons prime_43 (all_cons prime_3727 all_nil)))))
    (by decide +kernel) (by decide +kernel) (by decide +kernel)

theorem prime_74058212732561358302231226437062788676166966415465897661863160754340907 : Nat.Prime
    74058212732561358302231226437062788676166966415465897661863160754340907 :=
  pratt _ 2 [2, 3, 353, 57467, 132049, 1923133, 31757755568855353, 75445702479781427272750846543864801]
    (all_cons prime_2 (all_cons prime_3 (all_cons prime_353 (all_cons prime_57467 (all_cons prime_132049 (all_cons prime_1923133 (all_cons prime_31757755568855353 (all_cons prime_75445702479781427272750846543864801 all_nil))))))))
    (by decide +kernel) (by decide +kernel) (by decide +kernel)

theorem prime_479 : Nat.Prime 479 := by norm_num

theorem prime_32573 : Nat.Prime
    32573 :=
  pratt _ 2 [2, 2, 17, 479]
    (all_cons prime_2 (all_cons prime_2 (all_cons prime_17 (all_cons prime_479 all_nil))))
    (by decide +kernel) (by decide +kernel) (by decide +kernel)

theorem prime_65147 : Nat.Prime
    65147 :=
  pratt _ 2 [2, 32573]
    (all_cons prime_2 (all_cons prime_32573 all_nil))
    (by decide +kernel) (by decide +kernel) (by decide +kernel)

theorem prime_57896044618658097711785492504343953926634992332820282019728792003956564819949 : Nat.Prime
    57896044618658097711785492504343953926634992332820282019728792003956564819949 :=
  pratt _ 2 [2, 2, 3, 65147, 74058212732561358302231226437062788676166966415465897661863160754340907]
    (all_cons prime_2 (all_cons prime_2 (all_cons prime_3 (all_cons prime_65147 (all_cons prime_74058212732561358302231226437062788676166966415465897661863160754340907 all_nil)))))
    (by decide +kernel) (by decide +kernel) (by decide +kernel)

theorem prime_2851 : Nat.Prime 2851 := by norm_num

theorem prime_2551 : Nat.Prime 2551 := by norm_num

theorem prime_1224481 : Nat.Prime
    1224481 :=
  pratt _ 13 [2, 2, 2, 2, 2, 3, 5, 2551]
    (all_cons prime_2 (all_cons prime_2 (all_cons prime_2 (all_cons prime_2 (all_cons prime_2 (all_cons prime_3 (all_cons prime_5 (all_cons prime_2551 all_nil))))))))
    (by decide +kernel) (by decide +kernel) (by decide +kernel)

theorem prime_3797 : Nat.Prime 3797 := by norm_num

theorem prime_531581 : Nat.Prime
    531581 :=
  pratt _ 2 [2, 2, 5, 7, 3797]
    (all_cons prime_2 (all_cons prime_2 (all_cons prime_5 (all_cons prime_7 (all_cons prime_3797 all_nil)))))
    (by decide +kernel) (by decide +kernel) (by decide +kernel)

theorem prime_1257559732178653 : Nat.Prime
    1257559732178653 :=
  pratt _ 2 [2, 2, 3, 7, 23, 531581, 1224481]
    (all_cons prime_2 (all_cons prime_2 (all_cons prime_3 (all_cons prime_7 (all_cons prime_23 (all_cons prime_531581 (all_cons prime_1224481 all_nil)))))))
    (by decide +kernel) (by decide +kernel) (by decide +kernel)

theorem prime_4434155615661930479 : Nat.Prime
    4434155615661930479 :=
  pratt _ 17 [2, 41, 43, 1257559732178653]
    (all_cons prime_2 (all_cons prime_41 (all_cons prime_43 (all_cons prime_1257559732178653 all_nil))))
    (by decide +kernel) (by decide +kernel) (by decide +kernel)

theorem prime_1361 : Nat.Prime 1361 := by norm_num

theorem prime_172054593956031949258510691 : Nat.Prime
    172054593956031949258510691 :=
  pratt _ 2 [2, 5, 1361, 2851, 4434155615661930479]
    (all_cons prime_2 (all_cons prime_5 (all_cons prime_1361 (all_cons prime_2851 (all_cons prime_4434155615661930479 all_nil)))))
    (by decide +kernel) (by decide +kernel) (by decide +kernel)

theorem prime_269 : Nat.Prime 269 := by norm_num

theorem prime_73 : Nat.Prime 73 := by norm_num

theorem prime_307 : Nat.Prime 307 := by norm_num

theorem prime_2939 : Nat.Prime 2939 := by norm_num

theorem prime_5879 : Nat.Prime
    5879 :=
  pratt _ 11 [2, 2939]
    (all_cons prime_2 (all_cons prime_2939 all_nil))
    (by decide +kernel) (by decide +kernel) (by decide +kernel)

theorem prime_292386187 : Nat.Prime
    292386187 :=
  pratt _ 2 [2, 3, 3, 3, 3, 307, 5879]
    (all_cons prime_2 (all_cons prime_3 (all_cons prime_3 (all_cons prime_3 (all_cons prime_3 (all_cons prime_307 (all_cons prime_5879 all_nil)))))))
    (by decide +kernel) (by decide +kernel) (by decide +kernel)

theorem prime_213441916511 : Nat.Prime
    213441916511 :=
  pratt _ 13 [2, 5, 73, 292386187]
    (all_cons prime_2 (all_cons prime_5 (all_cons prime_73 (all_cons prime_292386187 all_nil))))
    (by decide +kernel) (by decide +kernel) (by decide +kernel)

theorem prime_19757330305831588566944191468367130476339 : Nat.Prime
    19757330305831588566944191468367130476339 :=
  pratt _ 2 [2, 269, 213441916511, 172054593956031949258510691]
    (all_cons prime_2 (all_cons prime_269 (all_cons prime_213441916511 (all_cons prime_172054593956031949258510691 all_nil))))
    (by decide +kernel) (by decide +kernel) (by decide +kernel)

theorem prime_276602624281642239937218680557139826668747 : Nat.Prime
    276602624281642239937218680557139826668747 :=
  pratt _ 2 [2, 7, 19757330305831588566944191468367130476339]
    (all_cons prime_2 (all_cons prime_7 (all_cons prime_19757330305831588566944191468367130476339 all_nil)))
    (by decide +kernel) (by decide +kernel) (by decide +kernel)

theorem prime_34123 : Nat.Prime
    34123 :=
  pratt _ 2 [2, 3, 11, 11, 47]
    (all_cons prime_2 (all_cons prime_3 (all_cons prime_11 (all_cons prime_11 (all_cons prime_47 all_nil)))))
    (by decide +kernel) (by decide +kernel) (by decide +kernel)

theorem prime_409477 : Nat.Prime
    409477 :=
  pratt _ 2 [2, 2, 3, 34123]
    (all_cons prime_2 (all_cons prime_2 (all_cons prime_3 (all_cons prime_34123 all_nil))))
    (by decide +kernel) (by decide +kernel) (by decide +kernel)

theorem prime_14741173 : Nat.Prime
    14741173 :=
  pratt _ 2 [2, 2, 3, 3, 409477]
    (all_cons prime_2 (all_cons prime_2 (all_cons prime_3 (all_cons prime_3 (all_cons prime_409477 all_nil)))))
    (by decide +kernel) (by decide +kernel) (by decide +kernel)

theorem prime_58964693 : Nat.Prime
    58964693 :=
  pratt _ 2 [2, 2, 14741173]
    (all_cons prime_2 (all_cons prime_2 (all_cons prime_14741173 all_nil)))
    (by decide +kernel) (by decide +kernel) (by decide +kernel)

theorem prime_30703 : Nat.Prime
    30703 :=
  pratt _ 3 [2, 3, 7, 17, 43]
    (all_cons prime_2 (all_cons prime_3 (all_cons prime_7 (all_cons prime_17 (all_cons prime_43 all_nil)))))
    (by decide +kernel) (by decide +kernel) (by decide +kernel)

theorem prime_79 : Nat.Prime 79 := by norm_num

theorem prime_41081 : Nat.Prime
    41081 :=
  pratt _ 3 [2, 2, 2, 5, 13, 79]
    (all_cons prime_2 (all_cons prime_2 (all_cons prime_2 (all_cons prime_5 (all_cons prime_13 (all_cons prime_79 all_nil))))))
    (by decide +kernel) (by decide +kernel) (by decide +kernel)

theorem prime_82163 : Nat.Prime
    82163 :=
  pratt _ 2 [2, 41081]
    (all_cons prime_2 (all_cons prime_41081 all_nil))
    (by decide +kernel) (by decide +kernel) (by decide +kernel)

theorem prime_17231 : Nat.Prime
    17231 :=
  pratt _ 13 [2, 5, 1723]
    (all_cons prime_2 (all_cons prime_5 (all_cons prime_1723 all_nil)))
    (by decide +kernel) (by decide +kernel) (by decide +kernel)

theorem prime_137849 : Nat.Prime
    137849 :=
  pratt _ 3 [2, 2, 2, 17231]
    (all_cons prime_2 (all_cons prime_2 (all_cons prime_2 (all_cons prime_17231 all_nil))))
    (by decide +kernel) (by decide +kernel) (by decide +kernel)

theorem prime_67 : Nat.Prime 67 := by norm_num

theorem prime_22111 : Nat.Prime
    22111 :=
  pratt _ 6 [2, 3, 5, 11, 67]
    (all_cons prime_2 (all_cons prime_3 (all_cons prime_5 (all_cons prime_11 (all_cons prime_67 all_nil)))))
    (by decide +kernel) (by decide +kernel) (by decide +kernel)

theorem prime_132667 : Nat.Prime
    132667 :=
  pratt _ 5 [2, 3, 22111]
    (all_cons prime_2 (all_cons prime_3 (all_cons prime_22111 all_nil)))
    (by decide +kernel) (by decide +kernel) (by decide +kernel)

theorem prime_3044861653679985063343 : Nat.Prime
    3044861653679985063343 :=
  pratt _ 5 [2, 3, 11, 30703, 82163, 132667, 137849]
    (all_cons prime_2 (all_cons prime_3 (all_cons prime_11 (all_cons prime_30703 (all_cons prime_82163 (all_cons prime_132667 (all_cons prime_137849 all_nil)))))))
    (by decide +kernel) (by decide +kernel) (by decide +kernel)

theorem prime_198211423230930754013084525763697 : Nat.Prime
    198211423230930754013084525763697 :=
  pratt _ 5 [2, 2, 2, 2, 3, 23, 58964693, 3044861653679985063343]
    (all_cons prime_2 (all_cons prime_2 (all_cons prime_2 (all_cons prime_2 (all_cons prime_3 (all_cons prime_23 (all_cons prime_58964693 (all_cons prime_3044861653679985063343 all_nil))))))))
    (by decide +kernel) (by decide +kernel) (by decide +kernel)

theorem prime_7237005577332262213973186563042994240857116359379907606001950938285454250989 : Nat.Prime
    7237005577332262213973186563042994240857116359379907606001950938285454250989 :=
  pratt _ 2 [2, 2, 3, 11, 198211423230930754013084525763697, 276602624281642239937218680557139826668747]
    (all_cons prime_2 (all_cons prime_2 (all_cons prime_3 (all_cons prime_11 (all_cons prime_198211423230930754013084525763697 (all_cons prime_276602624281642239937218680557139826668747 all_nil))))))
    (by decide +kernel) (by decide +kernel) (by decide +kernel)

theorem prime_10177 : Nat.Prime
    10177 :=
  pratt _ 7 [2, 2, 2, 2, 2, 2, 3, 53]
    (all_cons prime_2 (all_cons prime_2 (all_cons prime_2 (all_cons prime_2 (all_cons prime_2 (all_cons prime_2 (all_cons prime_3 (all_cons prime_53 all_nil))))))))
    (by decide +kernel) (by decide +kernel) (by decide +kernel)

theorem prime_47737 : Nat.Prime
    47737 :=
  pratt _ 5 [2, 2, 2, 3, 3, 3, 13, 17]
    (all_cons prime_2 (all_cons prime_2 (all_cons prime_2 (all_cons prime_3 (all_cons prime_3 (all_cons prime_3 (all_cons prime_13 (all_cons prime_17 all_nil))))))))
    (by decide +kernel) (by decide +kernel) (by decide +kernel)

theorem prime_859267 : Nat.Prime
    859267 :=
  pratt _ 2 [2, 3, 3, 47737]
    (all_cons prime_2 (all_cons prime_3 (all_cons prime_3 (all_cons prime_47737 all_nil))))
    (by decide +kernel) (by decide +kernel) (by decide +kernel)

theorem prime_110573 : Nat.Prime
    110573 :=
  pratt _ 3 [2, 2, 7, 11, 359]
    (all_cons prime_2 (all_cons prime_2 (all_cons prime_7 (all_cons prime_11 (all_cons prime_359 all_nil)))))
    (by decide +kernel) (by decide +kernel) (by decide +kernel)

theorem prime_2653753 : Nat.Prime
    2653753 :=
  pratt _ 5 [2, 2, 2, 3, 110573]
    (all_cons prime_2 (all_cons prime_2 (all_cons prime_2 (all_cons prime_3 (all_cons prime_110573 all_nil)))))
    (by decide +kernel) (by decide +kernel) (by decide +kernel)

theorem prime_63690073 : Nat.Prime
    63690073 :=
  pratt _ 7 [2, 2, 2, 3, 2653753]
    (all_cons prime_2 (all_cons prime_2 (all_cons prime_2 (all_cons prime_3 (all_cons prime_2653753 all_nil)))))
    (by decide +kernel) (by decide +kernel) (by decide +kernel)

theorem prime_254760293 : Nat.Prime
    254760293 :=
  pratt _ 2 [2, 2, 63690073]
    (all_cons prime_2 (all_cons prime_2 (all_cons prime_63690073 all_nil)))
    (by decide +kernel) (by decide +kernel) (by decide +kernel)

theorem prime_449 : Nat.Prime 449 := by norm_num

theorem prime_609743 : Nat.Prime
    609743 :=
  pratt _ 5 [2, 7, 97, 449]
    (all_cons prime_2 (all_cons prime_7 (all_cons prime_97 (all_cons prime_449 all_nil))))
    (by decide +kernel) (by decide +kernel) (by decide +kernel)

theorem prime_52437899 : Nat.Prime
    52437899 :=
  pratt _ 2 [2, 43, 609743]
    (all_cons prime_2 (all_cons prime_43 (all_cons prime_609743 all_nil)))
    (by decide +kernel) (by decide +kernel) (by decide +kernel)

theorem prime_1607 : Nat.Prime 1607 := by norm_num

theorem prime_906349 : Nat.Prime
    906349 :=
  pratt _ 2 [2, 2, 3, 47, 1607]
    (all_cons prime_2 (all_cons prime_2 (all_cons prime_3 (all_cons prime_47 (all_cons prime_1607 all_nil)))))
    (by decide +kernel) (by decide +kernel) (by decide +kernel)

theorem prime_523 : Nat.Prime 523 := by norm_num

theorem prime_20921 : Nat.Prime
    20921 :=
  pratt _ 3 [2, 2, 2, 5, 523]
    (all_cons prime_2 (all_cons prime_2 (all_cons prime_2 (all_cons prime_5 (all_cons prime_523 all_nil)))))
    (by decide +kernel) (by decide +kernel) (by decide +kernel)

theorem prime_125527 : Nat.Prime
    125527 :=
  pratt _ 5 [2, 3, 20921]
    (all_cons prime_2 (all_cons prime_3 (all_cons prime_20921 all_nil)))
    (by decide +kernel) (by decide +kernel) (by decide +kernel)

theorem prime_2508409 : Nat.Prime
    2508409 :=
  pratt _ 11 [2, 2, 2, 3, 3, 3, 3, 7, 7, 79]
    (all_cons prime_2 (all_cons prime_2 (all_cons prime_2 (all_cons prime_3 (all_cons prime_3 (all_cons prime_3 (all_cons prime_3 (all_cons prime_7 (all_cons prime_7 (all_cons prime_79 all_nil))))))))))
    (by decide +kernel) (by decide +kernel) (by decide +kernel)

theorem prime_18329 : Nat.Prime
    18329 :=
  pratt _ 3 [2, 2, 2, 29, 79]
    (all_cons prime_2 (all_cons prime_2 (all_cons prime_2 (all_cons prime_29 (all_cons prime_79 all_nil)))))
    (by decide +kernel) (by decide +kernel) (by decide +kernel)

theorem prime_2529403 : Nat.Prime
    2529403 :=
  pratt _ 2 [2, 3, 23, 18329]
    (all_cons prime_2 (all_cons prime_3 (all_cons prime_23 (all_cons prime_18329 all_nil))))
    (by decide +kernel) (by decide +kernel) (by decide +kernel)

theorem prime_52435875175126190479447740508185965837690552500527637822603658699938581184513 : Nat.Prime
    52435875175126190479447740508185965837690552500527637822603658699938581184513 :=
  pratt _ 7 [2, 2, 2, 2, 2, 2, 2, 2, 2, 2, 2, 2, 2, 2, 2, 2, 2, 2, 2, 2, 2, 2, 2, 2, 2, 2, 2, 2, 2, 2, 2, 2, 3, 11, 19, 10177, 125527, 859267, 906349, 906349, 2508409, 2529403, 52437899, 254760293, 254760293]
    (all_cons prime_2 (all_cons prime_2 (all_cons prime_2 (all_cons prime_2 (all_cons prime_2 (all_cons prime_2 (all_cons prime_2 (all_cons prime_2 (all_cons prime_2 (all_cons prime_2 (all_cons prime_2 (all_cons prime_2 (all_cons prime_2 (all_cons prime_2 (all_cons prime_2 (all_cons prime_2 (all_cons prime_2 (all_cons prime_2 (all_cons prime_2 (all_cons prime_2 (all_cons prime_2 (all_cons prime_2 (all_cons prime_2 (all_cons prime_2 (all_cons prime_2 (all_cons prime_2 (all_cons prime_2 (all_cons prime_2 (all_cons prime_2 (all_cons prime_2 (all_cons prime_2 (all_cons prime_2 (all_cons prime_3 (all_cons prime_11 (all_cons prime_19 (all_cons prime_10177 (all_cons prime_125527 (all_cons prime_859267 (all_cons prime_906349 (all_cons prime_906349 (all_cons prime_2508409 (all_cons prime_2529403 (all_cons prime_52437899 (all_cons prime_254760293 (all_cons prime_254760293 all_nil)))))))))))))))))))))))))))))))))))))))))))))
    (by decide +kernel) (by decide +kernel) (by decide +kernel)

end Verif.Native.Primes
