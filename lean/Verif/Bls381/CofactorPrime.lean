import Verif.Bls381.Prime

/-!
# Primality of the prime factors of the cofactor of G2 (generated with `tools/cofactor_cert.py`)

The factorisations were found with the elliptic curve method (`tools/ecm.c`); nothing of that is trusted, the kernel checks every
certificate.
-/

set_option exponentiation.threshold 500

namespace Verif.Native.Primes

theorem pratt450 (p a : Nat) (l : List Nat) (hl : ∀ q ∈ l, Nat.Prime q) (hprod : l.prod + 1 = p ∧ 1 < p ∧ p < 2 ^ 450)
    (h1 : pw p 450 a (p - 1) 1 % p = 1) (h2 : l.all (fun q => pw p 450 a ((p - 1) / q) 1 % p != 1) = true) :
    Nat.Prime p := by
  obtain ⟨hp, hp1, hp2⟩ := hprod
  refine lucas_primality p (a : ZMod p) ?_ ?_
  · have h := pw_spec p 450 a (p - 1) 1 (by omega)
    rw [Nat.cast_one, one_mul] at h
    rw [← h, ← ZMod.natCast_mod, h1, Nat.cast_one]
  · intro q hq hd hc
    rw [← hp, Nat.add_sub_cancel] at hd
    obtain ⟨r, hr, hdr⟩ := (Prime.dvd_prod_iff hq.prime).1 hd
    have : q = r := (Nat.prime_dvd_prime_iff_eq hq (hl r hr)).1 hdr
    subst this
    have hne := List.all_eq_true.1 h2 q hr
    have h := pw_spec p 450 a ((p - 1) / q) 1 (lt_of_le_of_lt (Nat.div_le_self _ _) (by omega))
    rw [Nat.cast_one, one_mul, hc] at h
    have hm := (ZMod.natCast_eq_natCast_iff (pw p 450 a ((p - 1) / q) 1) 1 p).1 (by rw [Nat.cast_one]; exact h)
    unfold Nat.ModEq at hm
    rw [Nat.mod_eq_of_lt hp1] at hm
    simp [hm] at hne

theorem prime_2713 : Nat.Prime 2713 := by norm_num

theorem prime_11953 : Nat.Prime
    11953 :=
  pratt _ 5 [2, 2, 2, 2, 3, 3, 83]
    (all_cons prime_2 (all_cons prime_2 (all_cons prime_2 (all_cons prime_2 (all_cons prime_3 (all_cons prime_3 (all_cons prime_83 all_nil)))))))
    (by decide +kernel) (by decide +kernel) (by decide +kernel)

theorem prime_61 : Nat.Prime 61 := by norm_num

theorem prime_179 : Nat.Prime 179 := by norm_num

theorem prime_21839 : Nat.Prime
    21839 :=
  pratt _ 11 [2, 61, 179]
    (all_cons prime_2 (all_cons prime_61 (all_cons prime_179 all_nil)))
    (by decide +kernel) (by decide +kernel) (by decide +kernel)

theorem prime_262069 : Nat.Prime
    262069 :=
  pratt _ 6 [2, 2, 3, 21839]
    (all_cons prime_2 (all_cons prime_2 (all_cons prime_3 (all_cons prime_21839 all_nil))))
    (by decide +kernel) (by decide +kernel) (by decide +kernel)

theorem prime_4920833 : Nat.Prime
    4920833 :=
  pratt _ 3 [2, 2, 2, 2, 2, 2, 2, 2, 2, 7, 1373]
    (all_cons prime_2 (all_cons prime_2 (all_cons prime_2 (all_cons prime_2 (all_cons prime_2 (all_cons prime_2 (all_cons prime_2 (all_cons prime_2 (all_cons prime_2 (all_cons prime_7 (all_cons prime_1373 all_nil)))))))))))
    (by decide +kernel) (by decide +kernel) (by decide +kernel)

theorem prime_3539 : Nat.Prime 3539 := by norm_num

theorem prime_52872661 : Nat.Prime
    52872661 :=
  pratt _ 2 [2, 2, 3, 3, 5, 83, 3539]
    (all_cons prime_2 (all_cons prime_2 (all_cons prime_3 (all_cons prime_3 (all_cons prime_5 (all_cons prime_83 (all_cons prime_3539 all_nil)))))))
    (by decide +kernel) (by decide +kernel) (by decide +kernel)

theorem prime_347 : Nat.Prime 347 := by norm_num

theorem prime_8329 : Nat.Prime
    8329 :=
  pratt _ 7 [2, 2, 2, 3, 347]
    (all_cons prime_2 (all_cons prime_2 (all_cons prime_2 (all_cons prime_3 (all_cons prime_347 all_nil)))))
    (by decide +kernel) (by decide +kernel) (by decide +kernel)

theorem prime_37501 : Nat.Prime
    37501 :=
  pratt _ 2 [2, 2, 3, 5, 5, 5, 5, 5]
    (all_cons prime_2 (all_cons prime_2 (all_cons prime_3 (all_cons prime_5 (all_cons prime_5 (all_cons prime_5 (all_cons prime_5 (all_cons prime_5 all_nil))))))))
    (by decide +kernel) (by decide +kernel) (by decide +kernel)

theorem prime_383 : Nat.Prime 383 := by norm_num

theorem prime_13789 : Nat.Prime
    13789 :=
  pratt _ 7 [2, 2, 3, 3, 383]
    (all_cons prime_2 (all_cons prime_2 (all_cons prime_3 (all_cons prime_3 (all_cons prime_383 all_nil)))))
    (by decide +kernel) (by decide +kernel) (by decide +kernel)

theorem prime_661873 : Nat.Prime
    661873 :=
  pratt _ 5 [2, 2, 2, 2, 3, 13789]
    (all_cons prime_2 (all_cons prime_2 (all_cons prime_2 (all_cons prime_2 (all_cons prime_3 (all_cons prime_13789 all_nil))))))
    (by decide +kernel) (by decide +kernel) (by decide +kernel)

theorem prime_19759 : Nat.Prime
    19759 :=
  pratt _ 3 [2, 3, 37, 89]
    (all_cons prime_2 (all_cons prime_3 (all_cons prime_37 (all_cons prime_89 all_nil))))
    (by decide +kernel) (by decide +kernel) (by decide +kernel)

theorem prime_12211063 : Nat.Prime
    12211063 :=
  pratt _ 5 [2, 3, 103, 19759]
    (all_cons prime_2 (all_cons prime_3 (all_cons prime_103 (all_cons prime_19759 all_nil))))
    (by decide +kernel) (by decide +kernel) (by decide +kernel)

theorem prime_1307 : Nat.Prime 1307 := by norm_num

theorem prime_3833 : Nat.Prime 3833 := by norm_num

theorem prime_1402724681 : Nat.Prime
    1402724681 :=
  pratt _ 3 [2, 2, 2, 5, 7, 1307, 3833]
    (all_cons prime_2 (all_cons prime_2 (all_cons prime_2 (all_cons prime_5 (all_cons prime_7 (all_cons prime_1307 (all_cons prime_3833 all_nil)))))))
    (by decide +kernel) (by decide +kernel) (by decide +kernel)

theorem prime_199 : Nat.Prime 199 := by norm_num

theorem prime_68059 : Nat.Prime
    68059 :=
  pratt _ 2 [2, 3, 3, 19, 199]
    (all_cons prime_2 (all_cons prime_3 (all_cons prime_3 (all_cons prime_19 (all_cons prime_199 all_nil)))))
    (by decide +kernel) (by decide +kernel) (by decide +kernel)

theorem prime_10267 : Nat.Prime
    10267 :=
  pratt _ 2 [2, 3, 29, 59]
    (all_cons prime_2 (all_cons prime_3 (all_cons prime_29 (all_cons prime_59 all_nil))))
    (by decide +kernel) (by decide +kernel) (by decide +kernel)

theorem prime_349079 : Nat.Prime
    349079 :=
  pratt _ 11 [2, 17, 10267]
    (all_cons prime_2 (all_cons prime_17 (all_cons prime_10267 all_nil)))
    (by decide +kernel) (by decide +kernel) (by decide +kernel)

theorem prime_16297965815447 : Nat.Prime
    16297965815447 :=
  pratt _ 5 [2, 7, 7, 7, 68059, 349079]
    (all_cons prime_2 (all_cons prime_7 (all_cons prime_7 (all_cons prime_7 (all_cons prime_68059 (all_cons prime_349079 all_nil))))))
    (by decide +kernel) (by decide +kernel) (by decide +kernel)

theorem prime_225493 : Nat.Prime
    225493 :=
  pratt _ 2 [2, 2, 3, 19, 23, 43]
    (all_cons prime_2 (all_cons prime_2 (all_cons prime_3 (all_cons prime_19 (all_cons prime_23 (all_cons prime_43 all_nil))))))
    (by decide +kernel) (by decide +kernel) (by decide +kernel)

theorem prime_810774871 : Nat.Prime
    810774871 :=
  pratt _ 11 [2, 3, 5, 89, 151, 2011]
    (all_cons prime_2 (all_cons prime_3 (all_cons prime_5 (all_cons prime_89 (all_cons prime_151 (all_cons prime_2011 all_nil))))))
    (by decide +kernel) (by decide +kernel) (by decide +kernel)

theorem prime_63240439939 : Nat.Prime
    63240439939 :=
  pratt _ 3 [2, 3, 13, 810774871]
    (all_cons prime_2 (all_cons prime_3 (all_cons prime_13 (all_cons prime_810774871 all_nil))))
    (by decide +kernel) (by decide +kernel) (by decide +kernel)

theorem prime_1770732318293 : Nat.Prime
    1770732318293 :=
  pratt _ 2 [2, 2, 7, 63240439939]
    (all_cons prime_2 (all_cons prime_2 (all_cons prime_7 (all_cons prime_63240439939 all_nil))))
    (by decide +kernel) (by decide +kernel) (by decide +kernel)

theorem prime_21561538103037546247 : Nat.Prime
    21561538103037546247 :=
  pratt _ 5 [2, 3, 3, 3, 225493, 1770732318293]
    (all_cons prime_2 (all_cons prime_3 (all_cons prime_3 (all_cons prime_3 (all_cons prime_225493 (all_cons prime_1770732318293 all_nil))))))
    (by decide +kernel) (by decide +kernel) (by decide +kernel)

theorem prime_86246152412150184989 : Nat.Prime
    86246152412150184989 :=
  pratt _ 2 [2, 2, 21561538103037546247]
    (all_cons prime_2 (all_cons prime_2 (all_cons prime_21561538103037546247 all_nil)))
    (by decide +kernel) (by decide +kernel) (by decide +kernel)

theorem prime_601 : Nat.Prime 601 := by norm_num

theorem prime_57697 : Nat.Prime
    57697 :=
  pratt _ 5 [2, 2, 2, 2, 2, 3, 601]
    (all_cons prime_2 (all_cons prime_2 (all_cons prime_2 (all_cons prime_2 (all_cons prime_2 (all_cons prime_3 (all_cons prime_601 all_nil)))))))
    (by decide +kernel) (by decide +kernel) (by decide +kernel)

theorem prime_2969 : Nat.Prime 2969 := by norm_num

theorem prime_197539 : Nat.Prime
    197539 :=
  pratt _ 2 [2, 3, 11, 41, 73]
    (all_cons prime_2 (all_cons prime_3 (all_cons prime_11 (all_cons prime_41 (all_cons prime_73 all_nil)))))
    (by decide +kernel) (by decide +kernel) (by decide +kernel)

theorem prime_6716327 : Nat.Prime
    6716327 :=
  pratt _ 5 [2, 17, 197539]
    (all_cons prime_2 (all_cons prime_17 (all_cons prime_197539 all_nil)))
    (by decide +kernel) (by decide +kernel) (by decide +kernel)

theorem prime_40297963 : Nat.Prime
    40297963 :=
  pratt _ 2 [2, 3, 6716327]
    (all_cons prime_2 (all_cons prime_3 (all_cons prime_6716327 all_nil)))
    (by decide +kernel) (by decide +kernel) (by decide +kernel)

theorem prime_241787779 : Nat.Prime
    241787779 :=
  pratt _ 2 [2, 3, 40297963]
    (all_cons prime_2 (all_cons prime_3 (all_cons prime_40297963 all_nil)))
    (by decide +kernel) (by decide +kernel) (by decide +kernel)

theorem prime_1435735831703 : Nat.Prime
    1435735831703 :=
  pratt _ 5 [2, 2969, 241787779]
    (all_cons prime_2 (all_cons prime_2969 (all_cons prime_241787779 all_nil)))
    (by decide +kernel) (by decide +kernel) (by decide +kernel)

theorem prime_907 : Nat.Prime 907 := by norm_num

theorem prime_541 : Nat.Prime 541 := by norm_num

theorem prime_233 : Nat.Prime 233 := by norm_num

theorem prime_587 : Nat.Prime 587 := by norm_num

theorem prime_1367711 : Nat.Prime
    1367711 :=
  pratt _ 7 [2, 5, 233, 587]
    (all_cons prime_2 (all_cons prime_5 (all_cons prime_233 (all_cons prime_587 all_nil))))
    (by decide +kernel) (by decide +kernel) (by decide +kernel)

theorem prime_12192593745179 : Nat.Prime
    12192593745179 :=
  pratt _ 2 [2, 7, 11, 107, 541, 1367711]
    (all_cons prime_2 (all_cons prime_7 (all_cons prime_11 (all_cons prime_107 (all_cons prime_541 (all_cons prime_1367711 all_nil))))))
    (by decide +kernel) (by decide +kernel) (by decide +kernel)

theorem prime_512088937297519 : Nat.Prime
    512088937297519 :=
  pratt _ 6 [2, 3, 7, 12192593745179]
    (all_cons prime_2 (all_cons prime_3 (all_cons prime_7 (all_cons prime_12192593745179 all_nil))))
    (by decide +kernel) (by decide +kernel) (by decide +kernel)

theorem prime_1857858664515398933 : Nat.Prime
    1857858664515398933 :=
  pratt _ 2 [2, 2, 907, 512088937297519]
    (all_cons prime_2 (all_cons prime_2 (all_cons prime_907 (all_cons prime_512088937297519 all_nil))))
    (by decide +kernel) (by decide +kernel) (by decide +kernel)

theorem prime_22294303974184787197 : Nat.Prime
    22294303974184787197 :=
  pratt _ 14 [2, 2, 3, 1857858664515398933]
    (all_cons prime_2 (all_cons prime_2 (all_cons prime_3 (all_cons prime_1857858664515398933 all_nil))))
    (by decide +kernel) (by decide +kernel) (by decide +kernel)

theorem prime_19931107752921199754119 : Nat.Prime
    19931107752921199754119 :=
  pratt _ 3 [2, 3, 149, 22294303974184787197]
    (all_cons prime_2 (all_cons prime_3 (all_cons prime_149 (all_cons prime_22294303974184787197 all_nil))))
    (by decide +kernel) (by decide +kernel) (by decide +kernel)

theorem prime_81162125843606155545104998607900118769099783 : Nat.Prime
    81162125843606155545104998607900118769099783 :=
  pratt _ 5 [2, 3, 3, 2731, 57697, 1435735831703, 19931107752921199754119]
    (all_cons prime_2 (all_cons prime_3 (all_cons prime_3 (all_cons prime_2731 (all_cons prime_57697 (all_cons prime_1435735831703 (all_cons prime_19931107752921199754119 all_nil)))))))
    (by decide +kernel) (by decide +kernel) (by decide +kernel)

theorem prime_26935696298915610574513298451669528361624243820491956655650666425177 : Nat.Prime
    26935696298915610574513298451669528361624243820491956655650666425177 :=
  pratt _ 3 [2, 2, 2, 13, 37, 86246152412150184989, 81162125843606155545104998607900118769099783]
    (all_cons prime_2 (all_cons prime_2 (all_cons prime_2 (all_cons prime_13 (all_cons prime_37 (all_cons prime_86246152412150184989 (all_cons prime_81162125843606155545104998607900118769099783 all_nil)))))))
    (by decide +kernel) (by decide +kernel) (by decide +kernel)

theorem prime_4638704574076146691498289350639807119782054683906549022985642612861209609656189848749536921852444848596916990932297 : Nat.Prime
    4638704574076146691498289350639807119782054683906549022985642612861209609656189848749536921852444848596916990932297 :=
  pratt _ 3 [2, 2, 2, 373, 8329, 37501, 661873, 12211063, 1402724681, 16297965815447, 26935696298915610574513298451669528361624243820491956655650666425177]
    (all_cons prime_2 (all_cons prime_2 (all_cons prime_2 (all_cons prime_373 (all_cons prime_8329 (all_cons prime_37501 (all_cons prime_661873 (all_cons prime_12211063 (all_cons prime_1402724681 (all_cons prime_16297965815447 (all_cons prime_26935696298915610574513298451669528361624243820491956655650666425177 all_nil)))))))))))
    (by decide +kernel) (by decide +kernel) (by decide +kernel)

theorem prime_402096035359507321594726366720466575392706800671181159425656785868777272553337714697862511267018014931937703598282857976535744623203249 : Nat.Prime
    402096035359507321594726366720466575392706800671181159425656785868777272553337714697862511267018014931937703598282857976535744623203249 :=
  pratt450 _ 13 [2, 2, 2, 2, 3, 11, 631, 4920833, 52872661, 4638704574076146691498289350639807119782054683906549022985642612861209609656189848749536921852444848596916990932297]
    (all_cons prime_2 (all_cons prime_2 (all_cons prime_2 (all_cons prime_2 (all_cons prime_3 (all_cons prime_11 (all_cons prime_631 (all_cons prime_4920833 (all_cons prime_52872661 (all_cons prime_4638704574076146691498289350639807119782054683906549022985642612861209609656189848749536921852444848596916990932297 all_nil))))))))))
    (by decide +kernel) (by decide +kernel) (by decide +kernel)

end Verif.Native.Primes
