import Verif.Native.Primes

/-!
# Primality of the BLS12-381 base field modulus (generated with `tools/pratt.py`)
-/

namespace Verif.Native.Primes

theorem prime_1327 : Nat.Prime 1327 := by norm_num

theorem prime_421987 : Nat.Prime
    421987 :=
  pratt _ 2 [2, 3, 53, 1327]
    (all_cons prime_2 (all_cons prime_3 (all_cons prime_53 (all_cons prime_1327 all_nil))))
    (by decide +kernel) (by decide +kernel) (by decide +kernel)

theorem prime_13090036741 : Nat.Prime
    13090036741 :=
  pratt _ 10 [2, 2, 3, 5, 11, 47, 421987]
    (all_cons prime_2 (all_cons prime_2 (all_cons prime_3 (all_cons prime_5 (all_cons prime_11 (all_cons prime_47 (all_cons prime_421987 all_nil)))))))
    (by decide +kernel) (by decide +kernel) (by decide +kernel)

theorem prime_1151 : Nat.Prime 1151 := by norm_num

theorem prime_755057 : Nat.Prime
    755057 :=
  pratt _ 3 [2, 2, 2, 2, 41, 1151]
    (all_cons prime_2 (all_cons prime_2 (all_cons prime_2 (all_cons prime_2 (all_cons prime_41 (all_cons prime_1151 all_nil))))))
    (by decide +kernel) (by decide +kernel) (by decide +kernel)

theorem prime_3819663927398918131021 : Nat.Prime
    3819663927398918131021 :=
  pratt _ 6 [2, 2, 3, 3, 5, 19, 113, 755057, 13090036741]
    (all_cons prime_2 (all_cons prime_2 (all_cons prime_3 (all_cons prime_3 (all_cons prime_5 (all_cons prime_19 (all_cons prime_113 (all_cons prime_755057 (all_cons prime_13090036741 all_nil)))))))))
    (by decide +kernel) (by decide +kernel) (by decide +kernel)

theorem prime_3373 : Nat.Prime 3373 := by norm_num

theorem prime_8101 : Nat.Prime
    8101 :=
  pratt _ 6 [2, 2, 3, 3, 3, 3, 5, 5]
    (all_cons prime_2 (all_cons prime_2 (all_cons prime_3 (all_cons prime_3 (all_cons prime_3 (all_cons prime_3 (all_cons prime_5 (all_cons prime_5 all_nil))))))))
    (by decide +kernel) (by decide +kernel) (by decide +kernel)

theorem prime_151 : Nat.Prime 151 := by norm_num

theorem prime_51376543 : Nat.Prime
    51376543 :=
  pratt _ 3 [2, 3, 7, 151, 8101]
    (all_cons prime_2 (all_cons prime_3 (all_cons prime_7 (all_cons prime_151 (all_cons prime_8101 all_nil)))))
    (by decide +kernel) (by decide +kernel) (by decide +kernel)

theorem prime_43670061551 : Nat.Prime
    43670061551 :=
  pratt _ 7 [2, 5, 5, 17, 51376543]
    (all_cons prime_2 (all_cons prime_5 (all_cons prime_5 (all_cons prime_17 (all_cons prime_51376543 all_nil)))))
    (by decide +kernel) (by decide +kernel) (by decide +kernel)

theorem prime_1125266252156850182658904441386709967 : Nat.Prime
    1125266252156850182658904441386709967 :=
  pratt _ 5 [2, 3373, 43670061551, 3819663927398918131021]
    (all_cons prime_2 (all_cons prime_3373 (all_cons prime_43670061551 (all_cons prime_3819663927398918131021 all_nil))))
    (by decide +kernel) (by decide +kernel) (by decide +kernel)

theorem prime_409 : Nat.Prime 409 := by norm_num

theorem prime_1453 : Nat.Prime 1453 := by norm_num

theorem prime_43591 : Nat.Prime
    43591 :=
  pratt _ 11 [2, 3, 5, 1453]
    (all_cons prime_2 (all_cons prime_3 (all_cons prime_5 (all_cons prime_1453 all_nil))))
    (by decide +kernel) (by decide +kernel) (by decide +kernel)

theorem prime_927093389 : Nat.Prime
    927093389 :=
  pratt _ 3 [2, 2, 13, 409, 43591]
    (all_cons prime_2 (all_cons prime_2 (all_cons prime_13 (all_cons prime_409 (all_cons prime_43591 all_nil)))))
    (by decide +kernel) (by decide +kernel) (by decide +kernel)

theorem prime_64881703735777 : Nat.Prime
    64881703735777 :=
  pratt _ 5 [2, 2, 2, 2, 2, 3, 3, 3, 3, 3, 3, 3, 927093389]
    (all_cons prime_2 (all_cons prime_2 (all_cons prime_2 (all_cons prime_2 (all_cons prime_2 (all_cons prime_3 (all_cons prime_3 (all_cons prime_3 (all_cons prime_3 (all_cons prime_3 (all_cons prime_3 (all_cons prime_3 (all_cons prime_927093389 all_nil)))))))))))))
    (by decide +kernel) (by decide +kernel) (by decide +kernel)

theorem prime_467 : Nat.Prime 467 := by norm_num

theorem prime_2741 : Nat.Prime 2741 := by norm_num

theorem prime_16447 : Nat.Prime
    16447 :=
  pratt _ 3 [2, 3, 2741]
    (all_cons prime_2 (all_cons prime_3 (all_cons prime_2741 all_nil)))
    (by decide +kernel) (by decide +kernel) (by decide +kernel)

theorem prime_92691255082156974996979 : Nat.Prime
    92691255082156974996979 :=
  pratt _ 3 [2, 3, 31, 467, 16447, 64881703735777]
    (all_cons prime_2 (all_cons prime_3 (all_cons prime_31 (all_cons prime_467 (all_cons prime_16447 (all_cons prime_64881703735777 all_nil))))))
    (by decide +kernel) (by decide +kernel) (by decide +kernel)

theorem prime_191 : Nat.Prime 191 := by norm_num

theorem prime_1686913 : Nat.Prime
    1686913 :=
  pratt _ 10 [2, 2, 2, 2, 2, 2, 2, 3, 23, 191]
    (all_cons prime_2 (all_cons prime_2 (all_cons prime_2 (all_cons prime_2 (all_cons prime_2 (all_cons prime_2 (all_cons prime_2 (all_cons prime_3 (all_cons prime_23 (all_cons prime_191 all_nil))))))))))
    (by decide +kernel) (by decide +kernel) (by decide +kernel)

theorem prime_475709467 : Nat.Prime
    475709467 :=
  pratt _ 2 [2, 3, 47, 1686913]
    (all_cons prime_2 (all_cons prime_3 (all_cons prime_47 (all_cons prime_1686913 all_nil))))
    (by decide +kernel) (by decide +kernel) (by decide +kernel)

theorem prime_15778400344354997994418419698270088123916926905054652752758194827714659 : Nat.Prime
    15778400344354997994418419698270088123916926905054652752758194827714659 :=
  pratt _ 2 [2, 3, 53, 475709467, 92691255082156974996979, 1125266252156850182658904441386709967]
    (all_cons prime_2 (all_cons prime_3 (all_cons prime_53 (all_cons prime_475709467 (all_cons prime_92691255082156974996979 (all_cons prime_1125266252156850182658904441386709967 all_nil))))))
    (by decide +kernel) (by decide +kernel) (by decide +kernel)

theorem prime_582767 : Nat.Prime
    582767 :=
  pratt _ 5 [2, 67, 4349]
    (all_cons prime_2 (all_cons prime_67 (all_cons prime_4349 all_nil)))
    (by decide +kernel) (by decide +kernel) (by decide +kernel)

theorem prime_947 : Nat.Prime 947 := by norm_num

theorem prime_7577 : Nat.Prime
    7577 :=
  pratt _ 3 [2, 2, 2, 947]
    (all_cons prime_2 (all_cons prime_2 (all_cons prime_2 (all_cons prime_947 all_nil))))
    (by decide +kernel) (by decide +kernel) (by decide +kernel)

theorem prime_9272813673901 : Nat.Prime
    9272813673901 :=
  pratt _ 2 [2, 2, 3, 5, 5, 7, 7577, 582767]
    (all_cons prime_2 (all_cons prime_2 (all_cons prime_3 (all_cons prime_5 (all_cons prime_5 (all_cons prime_7 (all_cons prime_7577 (all_cons prime_582767 all_nil))))))))
    (by decide +kernel) (by decide +kernel) (by decide +kernel)

theorem prime_1928745244171409 : Nat.Prime
    1928745244171409 :=
  pratt _ 3 [2, 2, 2, 2, 13, 9272813673901]
    (all_cons prime_2 (all_cons prime_2 (all_cons prime_2 (all_cons prime_2 (all_cons prime_13 (all_cons prime_9272813673901 all_nil))))))
    (by decide +kernel) (by decide +kernel) (by decide +kernel)

theorem prime_941 : Nat.Prime 941 := by norm_num

theorem prime_7259797099061183477 : Nat.Prime
    7259797099061183477 :=
  pratt _ 2 [2, 2, 941, 1928745244171409]
    (all_cons prime_2 (all_cons prime_2 (all_cons prime_941 (all_cons prime_1928745244171409 all_nil))))
    (by decide +kernel) (by decide +kernel) (by decide +kernel)

theorem prime_2584487767265781317813 : Nat.Prime
    2584487767265781317813 :=
  pratt _ 2 [2, 2, 89, 7259797099061183477]
    (all_cons prime_2 (all_cons prime_2 (all_cons prime_89 (all_cons prime_7259797099061183477 all_nil))))
    (by decide +kernel) (by decide +kernel) (by decide +kernel)

theorem prime_4002409555221667393417789825735904156556882819939007885332058136124031650490837864442687629129015664037894272559787 : Nat.Prime
    4002409555221667393417789825735904156556882819939007885332058136124031650490837864442687629129015664037894272559787 :=
  pratt _ 2 [2, 3, 3, 11, 23, 47, 10177, 859267, 52437899, 2584487767265781317813, 15778400344354997994418419698270088123916926905054652752758194827714659]
    (all_cons prime_2 (all_cons prime_3 (all_cons prime_3 (all_cons prime_11 (all_cons prime_23 (all_cons prime_47 (all_cons prime_10177 (all_cons prime_859267 (all_cons prime_52437899 (all_cons prime_2584487767265781317813 (all_cons prime_15778400344354997994418419698270088123916926905054652752758194827714659 all_nil)))))))))))
    (by decide +kernel) (by decide +kernel) (by decide +kernel)

end Verif.Native.Primes
