import Verif.Native.Primes

/-!
# Primality of the order of BLS12-377 (generated by `tools/pratt377.py`)

A Pratt certificate; nothing the generator says is trusted, the kernel checks it.
-/

namespace Verif.B377.Prime
open Verif.Native.Primes (pratt all_cons all_nil)

theorem prime_2 : Nat.Prime 2 := by norm_num

theorem prime_3 : Nat.Prime 3 := by norm_num

theorem prime_5 : Nat.Prime 5 := by norm_num

theorem prime_7 : Nat.Prime 7 := by norm_num

theorem prime_13 : Nat.Prime 13 := by norm_num

theorem prime_499 : Nat.Prime 499 := by norm_num

theorem prime_29 : Nat.Prime 29 := by norm_num

theorem prime_167 : Nat.Prime 167 := by norm_num

theorem prime_3511 : Nat.Prime 3511 := by norm_num

theorem prime_126397 : Nat.Prime
    126397 :=
  pratt _ 5 [2, 2, 3, 3, 3511]
    (all_cons prime_2 (all_cons prime_2 (all_cons prime_3 (all_cons prime_3 (all_cons prime_3511 all_nil)))))
    (by decide +kernel) (by decide +kernel) (by decide +kernel)

theorem prime_1832756501 : Nat.Prime
    1832756501 :=
  pratt _ 2 [2, 2, 5, 5, 5, 29, 126397]
    (all_cons prime_2 (all_cons prime_2 (all_cons prime_5 (all_cons prime_5 (all_cons prime_5 (all_cons prime_29 (all_cons prime_126397 all_nil)))))))
    (by decide +kernel) (by decide +kernel) (by decide +kernel)

theorem prime_49484425527001 : Nat.Prime
    49484425527001 :=
  pratt _ 14 [2, 2, 2, 3, 3, 3, 5, 5, 5, 1832756501]
    (all_cons prime_2 (all_cons prime_2 (all_cons prime_2 (all_cons prime_3 (all_cons prime_3 (all_cons prime_3 (all_cons prime_5 (all_cons prime_5 (all_cons prime_5 (all_cons prime_1832756501 all_nil))))))))))
    (by decide +kernel) (by decide +kernel) (by decide +kernel)

theorem prime_958612291309063373 : Nat.Prime
    958612291309063373 :=
  pratt _ 2 [2, 2, 29, 167, 49484425527001]
    (all_cons prime_2 (all_cons prime_2 (all_cons prime_29 (all_cons prime_167 (all_cons prime_49484425527001 all_nil)))))
    (by decide +kernel) (by decide +kernel) (by decide +kernel)

theorem prime_9586122913090633729 : Nat.Prime
    9586122913090633729 :=
  pratt _ 11 [2, 2, 2, 2, 2, 2, 2, 2, 2, 2, 2, 2, 2, 2, 2, 2, 2, 2, 2, 2, 2, 2, 2, 2, 2, 2, 2, 2, 2, 2, 2, 2, 2, 2, 2, 2, 2, 2, 2, 2, 2, 2, 2, 2, 2, 2, 3, 7, 13, 499]
    (all_cons prime_2 (all_cons prime_2 (all_cons prime_2 (all_cons prime_2 (all_cons prime_2 (all_cons prime_2 (all_cons prime_2 (all_cons prime_2 (all_cons prime_2 (all_cons prime_2 (all_cons prime_2 (all_cons prime_2 (all_cons prime_2 (all_cons prime_2 (all_cons prime_2 (all_cons prime_2 (all_cons prime_2 (all_cons prime_2 (all_cons prime_2 (all_cons prime_2 (all_cons prime_2 (all_cons prime_2 (all_cons prime_2 (all_cons prime_2 (all_cons prime_2 (all_cons prime_2 (all_cons prime_2 (all_cons prime_2 (all_cons prime_2 (all_cons prime_2 (all_cons prime_2 (all_cons prime_2 (all_cons prime_2 (all_cons prime_2 (all_cons prime_2 (all_cons prime_2 (all_cons prime_2 (all_cons prime_2 (all_cons prime_2 (all_cons prime_2 (all_cons prime_2 (all_cons prime_2 (all_cons prime_2 (all_cons prime_2 (all_cons prime_2 (all_cons prime_2 (all_cons prime_3 (all_cons prime_7 (all_cons prime_13 (all_cons prime_499 all_nil))))))))))))))))))))))))))))))))))))))))))))))))))
    (by decide +kernel) (by decide +kernel) (by decide +kernel)

theorem prime_8444461749428370424248824938781546531375899335154063827935233455917409239041 : Nat.Prime
    8444461749428370424248824938781546531375899335154063827935233455917409239041 :=
  pratt _ 22 [2, 2, 2, 2, 2, 2, 2, 2, 2, 2, 2, 2, 2, 2, 2, 2, 2, 2, 2, 2, 2, 2, 2, 2, 2, 2, 2, 2, 2, 2, 2, 2, 2, 2, 2, 2, 2, 2, 2, 2, 2, 2, 2, 2, 2, 2, 2, 3, 5, 7, 13, 499, 958612291309063373, 9586122913090633729, 9586122913090633729]
    (all_cons prime_2 (all_cons prime_2 (all_cons prime_2 (all_cons prime_2 (all_cons prime_2 (all_cons prime_2 (all_cons prime_2 (all_cons prime_2 (all_cons prime_2 (all_cons prime_2 (all_cons prime_2 (all_cons prime_2 (all_cons prime_2 (all_cons prime_2 (all_cons prime_2 (all_cons prime_2 (all_cons prime_2 (all_cons prime_2 (all_cons prime_2 (all_cons prime_2 (all_cons prime_2 (all_cons prime_2 (all_cons prime_2 (all_cons prime_2 (all_cons prime_2 (all_cons prime_2 (all_cons prime_2 (all_cons prime_2 (all_cons prime_2 (all_cons prime_2 (all_cons prime_2 (all_cons prime_2 (all_cons prime_2 (all_cons prime_2 (all_cons prime_2 (all_cons prime_2 (all_cons prime_2 (all_cons prime_2 (all_cons prime_2 (all_cons prime_2 (all_cons prime_2 (all_cons prime_2 (all_cons prime_2 (all_cons prime_2 (all_cons prime_2 (all_cons prime_2 (all_cons prime_2 (all_cons prime_3 (all_cons prime_5 (all_cons prime_7 (all_cons prime_13 (all_cons prime_499 (all_cons prime_958612291309063373 (all_cons prime_9586122913090633729 (all_cons prime_9586122913090633729 all_nil)))))))))))))))))))))))))))))))))))))))))))))))))))))))
    (by decide +kernel) (by decide +kernel) (by decide +kernel)

theorem prime_162338311025560204734409668493351965499855424996886443355293240622504355033851083018059673757211935522727148613121 : Nat.Prime
    162338311025560204734409668493351965499855424996886443355293240622504355033851083018059673757211935522727148613121 :=
  pratt _ 7 [2, 2, 2, 2, 2, 2, 2, 2, 2, 3, 3, 3, 3, 3, 3, 3, 3, 3, 3, 3, 3, 3, 3, 3, 3, 3, 3, 3, 3, 3, 3, 3, 3, 3, 3, 3, 3, 3, 3, 3, 3, 3, 3, 3, 3, 3, 3, 3, 3, 3, 3, 3, 3, 3, 3, 3, 3, 3, 3, 3, 3, 3, 3, 3, 3, 3, 3, 3, 3, 3, 3, 3, 3, 3, 3, 3, 3, 3, 3, 3, 5, 8444461749428370424248824938781546531375899335154063827935233455917409239041]
    (all_cons prime_2 (all_cons prime_2 (all_cons prime_2 (all_cons prime_2 (all_cons prime_2 (all_cons prime_2 (all_cons prime_2 (all_cons prime_2 (all_cons prime_2 (all_cons prime_3 (all_cons prime_3 (all_cons prime_3 (all_cons prime_3 (all_cons prime_3 (all_cons prime_3 (all_cons prime_3 (all_cons prime_3 (all_cons prime_3 (all_cons prime_3 (all_cons prime_3 (all_cons prime_3 (all_cons prime_3 (all_cons prime_3 (all_cons prime_3 (all_cons prime_3 (all_cons prime_3 (all_cons prime_3 (all_cons prime_3 (all_cons prime_3 (all_cons prime_3 (all_cons prime_3 (all_cons prime_3 (all_cons prime_3 (all_cons prime_3 (all_cons prime_3 (all_cons prime_3 (all_cons prime_3 (all_cons prime_3 (all_cons prime_3 (all_cons prime_3 (all_cons prime_3 (all_cons prime_3 (all_cons prime_3 (all_cons prime_3 (all_cons prime_3 (all_cons prime_3 (all_cons prime_3 (all_cons prime_3 (all_cons prime_3 (all_cons prime_3 (all_cons prime_3 (all_cons prime_3 (all_cons prime_3 (all_cons prime_3 (all_cons prime_3 (all_cons prime_3 (all_cons prime_3 (all_cons prime_3 (all_cons prime_3 (all_cons prime_3 (all_cons prime_3 (all_cons prime_3 (all_cons prime_3 (all_cons prime_3 (all_cons prime_3 (all_cons prime_3 (all_cons prime_3 (all_cons prime_3 (all_cons prime_3 (all_cons prime_3 (all_cons prime_3 (all_cons prime_3 (all_cons prime_3 (all_cons prime_3 (all_cons prime_3 (all_cons prime_3 (all_cons prime_3 (all_cons prime_3 (all_cons prime_3 (all_cons prime_3 (all_cons prime_5 (all_cons prime_8444461749428370424248824938781546531375899335154063827935233455917409239041 all_nil))))))))))))))))))))))))))))))))))))))))))))))))))))))))))))))))))))))))))))))))))
    (by decide +kernel) (by decide +kernel) (by decide +kernel)

/-- `bls12377modulus` (crypto/core/curves/bls12377_curve.go:27-30). -/
def r : Nat := 0x12ab655e9a2ca55660b44d1e5c37b00159aa76fed00000010a11800000000001

theorem prime_r : Nat.Prime r := prime_8444461749428370424248824938781546531375899335154063827935233455917409239041

/-- A prime with 377 bits, one more than a multiple of the order. -/
def toyP : Nat := 0x10e030039f1b904be4d63214cd5f04df2838e1c4e3bd46ac382b2f30c54fa33848adfb70240fe8eb3a2b349368b6e01

theorem prime_toyP : Nat.Prime toyP := prime_162338311025560204734409668493351965499855424996886443355293240622504355033851083018059673757211935522727148613121

end Verif.B377.Prime
