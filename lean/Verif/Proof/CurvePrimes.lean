import Verif.Proof.LucasPlus
import Mathlib.NumberTheory.LucasLehmer
import Mathlib.Tactic.NormNum.Prime

/-! The moduli and group orders of the named curves are prime. Certificates generated from the factorisations of `p - 1`. -/

namespace Verif.CurvePrimes
open Verif.Primality

theorem prime_6700417 : Nat.Prime 6700417 :=
  prime_of_check 6700417 5 23 [2, 2, 2, 2, 2, 2, 2, 3, 17449] (by decide +kernel)
    (by simp only [List.forall_mem_cons, List.not_mem_nil, false_implies, implies_true, and_true]; exact ⟨(by norm_num), (by norm_num), (by norm_num), (by norm_num), (by norm_num), (by norm_num), (by norm_num), (by norm_num), (by norm_num)⟩)

theorem prime_2998279 : Nat.Prime 2998279 :=
  prime_of_check 2998279 3 22 [2, 3, 3, 166571] (by decide +kernel)
    (by simp only [List.forall_mem_cons, List.not_mem_nil, false_implies, implies_true, and_true]; exact ⟨(by norm_num), (by norm_num), (by norm_num), (by norm_num)⟩)

theorem prime_67280421310721 : Nat.Prime 67280421310721 :=
  prime_of_check 67280421310721 3 46 [2, 2, 2, 2, 2, 2, 2, 2, 5, 47, 373, 2998279] (by decide +kernel)
    (by simp only [List.forall_mem_cons, List.not_mem_nil, false_implies, implies_true, and_true]; exact ⟨(by norm_num), (by norm_num), (by norm_num), (by norm_num), (by norm_num), (by norm_num), (by norm_num), (by norm_num), (by norm_num), (by norm_num), (by norm_num), prime_2998279⟩)

theorem prime_224_66298881 : Nat.Prime 26959946667150639794667015087019630673557916260026308143510066298881 :=
  prime_of_check 26959946667150639794667015087019630673557916260026308143510066298881 22 224 [2, 2, 2, 2, 2, 2, 2, 2, 2, 2, 2, 2, 2, 2, 2, 2, 2, 2, 2, 2, 2, 2, 2, 2, 2, 2, 2, 2, 2, 2, 2, 2, 2, 2, 2, 2, 2, 2, 2, 2, 2, 2, 2, 2, 2, 2, 2, 2, 2, 2, 2, 2, 2, 2, 2, 2, 2, 2, 2, 2, 2, 2, 2, 2, 2, 2, 2, 2, 2, 2, 2, 2, 2, 2, 2, 2, 2, 2, 2, 2, 2, 2, 2, 2, 2, 2, 2, 2, 2, 2, 2, 2, 2, 2, 2, 2, 3, 5, 17, 257, 641, 65537, 274177, 6700417, 67280421310721] (by decide +kernel)
    (by simp only [List.forall_mem_cons, List.not_mem_nil, false_implies, implies_true, and_true]; exact ⟨(by norm_num), (by norm_num), (by norm_num), (by norm_num), (by norm_num), (by norm_num), (by norm_num), (by norm_num), (by norm_num), (by norm_num), (by norm_num), (by norm_num), (by norm_num), (by norm_num), (by norm_num), (by norm_num), (by norm_num), (by norm_num), (by norm_num), (by norm_num), (by norm_num), (by norm_num), (by norm_num), (by norm_num), (by norm_num), (by norm_num), (by norm_num), (by norm_num), (by norm_num), (by norm_num), (by norm_num), (by norm_num), (by norm_num), (by norm_num), (by norm_num), (by norm_num), (by norm_num), (by norm_num), (by norm_num), (by norm_num), (by norm_num), (by norm_num), (by norm_num), (by norm_num), (by norm_num), (by norm_num), (by norm_num), (by norm_num), (by norm_num), (by norm_num), (by norm_num), (by norm_num), (by norm_num), (by norm_num), (by norm_num), (by norm_num), (by norm_num), (by norm_num), (by norm_num), (by norm_num), (by norm_num), (by norm_num), (by norm_num), (by norm_num), (by norm_num), (by norm_num), (by norm_num), (by norm_num), (by norm_num), (by norm_num), (by norm_num), (by norm_num), (by norm_num), (by norm_num), (by norm_num), (by norm_num), (by norm_num), (by norm_num), (by norm_num), (by norm_num), (by norm_num), (by norm_num), (by norm_num), (by norm_num), (by norm_num), (by norm_num), (by norm_num), (by norm_num), (by norm_num), (by norm_num), (by norm_num), (by norm_num), (by norm_num), (by norm_num), (by norm_num), (by norm_num), (by norm_num), (by norm_num), (by norm_num), (by norm_num), (by norm_num), (by norm_num), (by norm_num), prime_6700417, prime_67280421310721⟩)

theorem prime_13928737 : Nat.Prime 13928737 :=
  prime_of_check 13928737 15 24 [2, 2, 2, 2, 2, 3, 145091] (by decide +kernel)
    (by simp only [List.forall_mem_cons, List.not_mem_nil, false_implies, implies_true, and_true]; exact ⟨(by norm_num), (by norm_num), (by norm_num), (by norm_num), (by norm_num), (by norm_num), (by norm_num)⟩)

theorem prime_11105363 : Nat.Prime 11105363 :=
  prime_of_check 11105363 2 24 [2, 509, 10909] (by decide +kernel)
    (by simp only [List.forall_mem_cons, List.not_mem_nil, false_implies, implies_true, and_true]; exact ⟨(by norm_num), (by norm_num), (by norm_num)⟩)

theorem prime_821796863 : Nat.Prime 821796863 :=
  prime_of_check 821796863 5 30 [2, 37, 11105363] (by decide +kernel)
    (by simp only [List.forall_mem_cons, List.not_mem_nil, false_implies, implies_true, and_true]; exact ⟨(by norm_num), (by norm_num), prime_11105363⟩)

theorem prime_432621809776543 : Nat.Prime 432621809776543 :=
  prime_of_check 432621809776543 3 49 [2, 3, 87739, 821796863] (by decide +kernel)
    (by simp only [List.forall_mem_cons, List.not_mem_nil, false_implies, implies_true, and_true]; exact ⟨(by norm_num), (by norm_num), (by norm_num), prime_821796863⟩)

theorem prime_136401162692544977256234449 : Nat.Prime 136401162692544977256234449 :=
  prime_of_check 136401162692544977256234449 3 87 [2, 2, 2, 2, 31, 20599, 30859, 432621809776543] (by decide +kernel)
    (by simp only [List.forall_mem_cons, List.not_mem_nil, false_implies, implies_true, and_true]; exact ⟨(by norm_num), (by norm_num), (by norm_num), (by norm_num), (by norm_num), (by norm_num), (by norm_num), prime_432621809776543⟩)

theorem prime_105_74983797 : Nat.Prime 34646440928557194402992574983797 :=
  prime_of_check 34646440928557194402992574983797 2 105 [2, 2, 3, 61, 347, 136401162692544977256234449] (by decide +kernel)
    (by simp only [List.forall_mem_cons, List.not_mem_nil, false_implies, implies_true, and_true]; exact ⟨(by norm_num), (by norm_num), (by norm_num), (by norm_num), (by norm_num), prime_136401162692544977256234449⟩)

theorem prime_139_47573209 : Nat.Prime 375503554633724504423937478103159147573209 :=
  prime_of_check 375503554633724504423937478103159147573209 19 139 [2, 2, 2, 3, 2707, 166823, 34646440928557194402992574983797] (by decide +kernel)
    (by simp only [List.forall_mem_cons, List.not_mem_nil, false_implies, implies_true, and_true]; exact ⟨(by norm_num), (by norm_num), (by norm_num), (by norm_num), (by norm_num), (by norm_num), prime_105_74983797⟩)

theorem prime_196_89351507 : Nat.Prime 50520606258875818707470860153287666700917696099933389351507 :=
  prime_of_check 50520606258875818707470860153287666700917696099933389351507 2 196 [2, 89, 631, 85999, 13928737, 375503554633724504423937478103159147573209] (by decide +kernel)
    (by simp only [List.forall_mem_cons, List.not_mem_nil, false_implies, implies_true, and_true]; exact ⟨(by norm_num), (by norm_num), (by norm_num), (by norm_num), prime_13928737, prime_139_47573209⟩)

theorem prime_224_22368061 : Nat.Prime 26959946667150639794667015087019625940457807714424391721682722368061 :=
  prime_of_check 26959946667150639794667015087019625940457807714424391721682722368061 2 224 [2, 2, 3, 3, 3, 3, 3, 3, 5, 17, 2153, 50520606258875818707470860153287666700917696099933389351507] (by decide +kernel)
    (by simp only [List.forall_mem_cons, List.not_mem_nil, false_implies, implies_true, and_true]; exact ⟨(by norm_num), (by norm_num), (by norm_num), (by norm_num), (by norm_num), (by norm_num), (by norm_num), (by norm_num), (by norm_num), (by norm_num), (by norm_num), prime_196_89351507⟩)

theorem prime_66417393611 : Nat.Prime 66417393611 :=
  prime_of_check 66417393611 6 36 [2, 5, 53, 173, 197, 3677] (by decide +kernel)
    (by simp only [List.forall_mem_cons, List.not_mem_nil, false_implies, implies_true, and_true]; exact ⟨(by norm_num), (by norm_num), (by norm_num), (by norm_num), (by norm_num), (by norm_num)⟩)

theorem prime_11290956913871 : Nat.Prime 11290956913871 :=
  prime_of_check 11290956913871 13 44 [2, 5, 17, 66417393611] (by decide +kernel)
    (by simp only [List.forall_mem_cons, List.not_mem_nil, false_implies, implies_true, and_true]; exact ⟨(by norm_num), (by norm_num), (by norm_num), prime_66417393611⟩)

theorem prime_46076956964474543 : Nat.Prime 46076956964474543 :=
  prime_of_check 46076956964474543 5 56 [2, 23, 18169, 78283, 704251] (by decide +kernel)
    (by simp only [List.forall_mem_cons, List.not_mem_nil, false_implies, implies_true, and_true]; exact ⟨(by norm_num), (by norm_num), (by norm_num), (by norm_num), (by norm_num)⟩)

theorem prime_204061199 : Nat.Prime 204061199 :=
  prime_of_check 204061199 11 28 [2, 11, 23, 107, 3769] (by decide +kernel)
    (by simp only [List.forall_mem_cons, List.not_mem_nil, false_implies, implies_true, and_true]; exact ⟨(by norm_num), (by norm_num), (by norm_num), (by norm_num), (by norm_num)⟩)

theorem prime_34282281433 : Nat.Prime 34282281433 :=
  prime_of_check 34282281433 17 35 [2, 2, 2, 3, 7, 204061199] (by decide +kernel)
    (by simp only [List.forall_mem_cons, List.not_mem_nil, false_implies, implies_true, and_true]; exact ⟨(by norm_num), (by norm_num), (by norm_num), (by norm_num), (by norm_num), prime_204061199⟩)

theorem prime_150_72145303 : Nat.Prime 774023187263532362759620327192479577272145303 :=
  prime_of_check 774023187263532362759620327192479577272145303 3 150 [2, 3, 3, 2411, 34282281433, 11290956913871, 46076956964474543] (by decide +kernel)
    (by simp only [List.forall_mem_cons, List.not_mem_nil, false_implies, implies_true, and_true]; exact ⟨(by norm_num), (by norm_num), (by norm_num), (by norm_num), prime_34282281433, prime_11290956913871, prime_46076956964474543⟩)

theorem prime_160_16927241 : Nat.Prime 835945042244614951780389953367877943453916927241 :=
  prime_of_check 835945042244614951780389953367877943453916927241 11 160 [2, 2, 2, 3, 3, 3, 5, 774023187263532362759620327192479577272145303] (by decide +kernel)
    (by simp only [List.forall_mem_cons, List.not_mem_nil, false_implies, implies_true, and_true]; exact ⟨(by norm_num), (by norm_num), (by norm_num), (by norm_num), (by norm_num), (by norm_num), (by norm_num), prime_150_72145303⟩)

theorem prime_256_97853951 : Nat.Prime 115792089210356248762697446949407573530086143415290314195533631308867097853951 :=
  prime_of_check 115792089210356248762697446949407573530086143415290314195533631308867097853951 6 256 [2, 3, 5, 5, 17, 257, 641, 1531, 65537, 490463, 6700417, 835945042244614951780389953367877943453916927241] (by decide +kernel)
    (by simp only [List.forall_mem_cons, List.not_mem_nil, false_implies, implies_true, and_true]; exact ⟨(by norm_num), (by norm_num), (by norm_num), (by norm_num), (by norm_num), (by norm_num), (by norm_num), (by norm_num), (by norm_num), (by norm_num), prime_6700417, prime_160_16927241⟩)

theorem prime_3969899 : Nat.Prime 3969899 :=
  prime_of_check 3969899 2 22 [2, 19, 104471] (by decide +kernel)
    (by simp only [List.forall_mem_cons, List.not_mem_nil, false_implies, implies_true, and_true]; exact ⟨(by norm_num), (by norm_num), (by norm_num)⟩)

theorem prime_1002328039319 : Nat.Prime 1002328039319 :=
  prime_of_check 1002328039319 19 40 [2, 126241, 3969899] (by decide +kernel)
    (by simp only [List.forall_mem_cons, List.not_mem_nil, false_implies, implies_true, and_true]; exact ⟨(by norm_num), (by norm_num), prime_3969899⟩)

theorem prime_191039911 : Nat.Prime 191039911 :=
  prime_of_check 191039911 3 28 [2, 3, 5, 41, 155317] (by decide +kernel)
    (by simp only [List.forall_mem_cons, List.not_mem_nil, false_implies, implies_true, and_true]; exact ⟨(by norm_num), (by norm_num), (by norm_num), (by norm_num), (by norm_num)⟩)

theorem prime_208150935158385979 : Nat.Prime 208150935158385979 :=
  prime_of_check 208150935158385979 2 58 [2, 3, 11, 43, 127, 3023, 191039911] (by decide +kernel)
    (by simp only [List.forall_mem_cons, List.not_mem_nil, false_implies, implies_true, and_true]; exact ⟨(by norm_num), (by norm_num), (by norm_num), (by norm_num), (by norm_num), (by norm_num), prime_191039911⟩)

theorem prime_2624747550333869278416773953 : Nat.Prime 2624747550333869278416773953 :=
  prime_of_check 2624747550333869278416773953 7 92 [2, 2, 2, 2, 2, 2, 3, 3, 1297, 16879, 208150935158385979] (by decide +kernel)
    (by simp only [List.forall_mem_cons, List.not_mem_nil, false_implies, implies_true, and_true]; exact ⟨(by norm_num), (by norm_num), (by norm_num), (by norm_num), (by norm_num), (by norm_num), (by norm_num), (by norm_num), (by norm_num), (by norm_num), prime_208150935158385979⟩)

theorem prime_311245691 : Nat.Prime 311245691 :=
  prime_of_check 311245691 2 29 [2, 5, 7, 17, 29, 29, 311] (by decide +kernel)
    (by simp only [List.forall_mem_cons, List.not_mem_nil, false_implies, implies_true, and_true]; exact ⟨(by norm_num), (by norm_num), (by norm_num), (by norm_num), (by norm_num), (by norm_num), (by norm_num)⟩)

theorem prime_622491383 : Nat.Prime 622491383 :=
  prime_of_check 622491383 5 30 [2, 311245691] (by decide +kernel)
    (by simp only [List.forall_mem_cons, List.not_mem_nil, false_implies, implies_true, and_true]; exact ⟨(by norm_num), prime_311245691⟩)

theorem prime_9350987 : Nat.Prime 9350987 :=
  prime_of_check 9350987 2 24 [2, 17, 229, 1201] (by decide +kernel)
    (by simp only [List.forall_mem_cons, List.not_mem_nil, false_implies, implies_true, and_true]; exact ⟨(by norm_num), (by norm_num), (by norm_num), (by norm_num)⟩)

theorem prime_187019741 : Nat.Prime 187019741 :=
  prime_of_check 187019741 2 28 [2, 2, 5, 9350987] (by decide +kernel)
    (by simp only [List.forall_mem_cons, List.not_mem_nil, false_implies, implies_true, and_true]; exact ⟨(by norm_num), (by norm_num), (by norm_num), prime_9350987⟩)

theorem prime_256_12044369 : Nat.Prime 115792089210356248762697446949407573529996955224135760342422259061068512044369 :=
  prime_of_check 115792089210356248762697446949407573529996955224135760342422259061068512044369 7 256 [2, 2, 2, 2, 3, 71, 131, 373, 3407, 17449, 38189, 187019741, 622491383, 1002328039319, 2624747550333869278416773953] (by decide +kernel)
    (by simp only [List.forall_mem_cons, List.not_mem_nil, false_implies, implies_true, and_true]; exact ⟨(by norm_num), (by norm_num), (by norm_num), (by norm_num), (by norm_num), (by norm_num), (by norm_num), (by norm_num), (by norm_num), (by norm_num), (by norm_num), prime_187019741, prime_622491383, prime_1002328039319, prime_2624747550333869278416773953⟩)

theorem prime_2862218959 : Nat.Prime 2862218959 :=
  prime_of_check 2862218959 3 32 [2, 3, 157, 1373, 2213] (by decide +kernel)
    (by simp only [List.forall_mem_cons, List.not_mem_nil, false_implies, implies_true, and_true]; exact ⟨(by norm_num), (by norm_num), (by norm_num), (by norm_num), (by norm_num)⟩)

theorem prime_807145746439 : Nat.Prime 807145746439 :=
  prime_of_check 807145746439 3 40 [2, 3, 47, 2862218959] (by decide +kernel)
    (by simp only [List.forall_mem_cons, List.not_mem_nil, false_implies, implies_true, and_true]; exact ⟨(by norm_num), (by norm_num), (by norm_num), prime_2862218959⟩)

theorem prime_532247449 : Nat.Prime 532247449 :=
  prime_of_check 532247449 7 29 [2, 2, 2, 3, 61, 363557] (by decide +kernel)
    (by simp only [List.forall_mem_cons, List.not_mem_nil, false_implies, implies_true, and_true]; exact ⟨(by norm_num), (by norm_num), (by norm_num), (by norm_num), (by norm_num), (by norm_num)⟩)

theorem prime_44925942675193 : Nat.Prime 44925942675193 :=
  prime_of_check 44925942675193 5 46 [2, 2, 2, 3, 3517, 532247449] (by decide +kernel)
    (by simp only [List.forall_mem_cons, List.not_mem_nil, false_implies, implies_true, and_true]; exact ⟨(by norm_num), (by norm_num), (by norm_num), (by norm_num), (by norm_num), prime_532247449⟩)

theorem prime_35581458644053887931343 : Nat.Prime 35581458644053887931343 :=
  prime_of_check 35581458644053887931343 5 75 [2, 17, 41, 568151, 44925942675193] (by decide +kernel)
    (by simp only [List.forall_mem_cons, List.not_mem_nil, false_implies, implies_true, and_true]; exact ⟨(by norm_num), (by norm_num), (by norm_num), (by norm_num), prime_44925942675193⟩)

theorem prime_23964610537191310276190549303 : Nat.Prime 23964610537191310276190549303 :=
  prime_of_check 23964610537191310276190549303 5 95 [2, 336757, 35581458644053887931343] (by decide +kernel)
    (by simp only [List.forall_mem_cons, List.not_mem_nil, false_implies, implies_true, and_true]; exact ⟨(by norm_num), (by norm_num), prime_35581458644053887931343⟩)

theorem prime_862725979338887169942859774909 : Nat.Prime 862725979338887169942859774909 :=
  prime_of_check 862725979338887169942859774909 2 100 [2, 2, 3, 3, 23964610537191310276190549303] (by decide +kernel)
    (by simp only [List.forall_mem_cons, List.not_mem_nil, false_implies, implies_true, and_true]; exact ⟨(by norm_num), (by norm_num), (by norm_num), (by norm_num), prime_23964610537191310276190549303⟩)

theorem prime_105_34597817 : Nat.Prime 20705423504133292078628634597817 :=
  prime_of_check 20705423504133292078628634597817 5 105 [2, 2, 2, 3, 862725979338887169942859774909] (by decide +kernel)
    (by simp only [List.forall_mem_cons, List.not_mem_nil, false_implies, implies_true, and_true]; exact ⟨(by norm_num), (by norm_num), (by norm_num), (by norm_num), prime_862725979338887169942859774909⟩)

theorem prime_6051631 : Nat.Prime 6051631 :=
  prime_of_check 6051631 6 23 [2, 3, 5, 13, 59, 263] (by decide +kernel)
    (by simp only [List.forall_mem_cons, List.not_mem_nil, false_implies, implies_true, and_true]; exact ⟨(by norm_num), (by norm_num), (by norm_num), (by norm_num), (by norm_num), (by norm_num)⟩)

theorem prime_139_91660047 : Nat.Prime 413244619895455989650825325680172591660047 :=
  prime_of_check 413244619895455989650825325680172591660047 5 139 [2, 17, 97, 6051631, 20705423504133292078628634597817] (by decide +kernel)
    (by simp only [List.forall_mem_cons, List.not_mem_nil, false_implies, implies_true, and_true]; exact ⟨(by norm_num), (by norm_num), (by norm_num), prime_6051631, prime_105_34597817⟩)

theorem prime_144_49801411 : Nat.Prime 12397338596863679689524759770405177749801411 :=
  prime_of_check 12397338596863679689524759770405177749801411 2 144 [2, 3, 5, 413244619895455989650825325680172591660047] (by decide +kernel)
    (by simp only [List.forall_mem_cons, List.not_mem_nil, false_implies, implies_true, and_true]; exact ⟨(by norm_num), (by norm_num), (by norm_num), prime_139_91660047⟩)

theorem prime_513928823 : Nat.Prime 513928823 :=
  prime_of_check 513928823 5 29 [2, 11, 59, 599, 661] (by decide +kernel)
    (by simp only [List.forall_mem_cons, List.not_mem_nil, false_implies, implies_true, and_true]; exact ⟨(by norm_num), (by norm_num), (by norm_num), (by norm_num), (by norm_num)⟩)

theorem prime_53448597593 : Nat.Prime 53448597593 :=
  prime_of_check 53448597593 3 36 [2, 2, 2, 13, 513928823] (by decide +kernel)
    (by simp only [List.forall_mem_cons, List.not_mem_nil, false_implies, implies_true, and_true]; exact ⟨(by norm_num), (by norm_num), (by norm_num), (by norm_num), prime_513928823⟩)

theorem prime_1357291859799823621 : Nat.Prime 1357291859799823621 :=
  prime_of_check 1357291859799823621 2 61 [2, 2, 3, 5, 67, 6317, 53448597593] (by decide +kernel)
    (by simp only [List.forall_mem_cons, List.not_mem_nil, false_implies, implies_true, and_true]; exact ⟨(by norm_num), (by norm_num), (by norm_num), (by norm_num), (by norm_num), (by norm_num), prime_53448597593⟩)

theorem prime_246608641 : Nat.Prime 246608641 :=
  prime_of_check 246608641 19 28 [2, 2, 2, 2, 2, 2, 2, 2, 3, 3, 5, 21407] (by decide +kernel)
    (by simp only [List.forall_mem_cons, List.not_mem_nil, false_implies, implies_true, and_true]; exact ⟨(by norm_num), (by norm_num), (by norm_num), (by norm_num), (by norm_num), (by norm_num), (by norm_num), (by norm_num), (by norm_num), (by norm_num), (by norm_num), (by norm_num)⟩)

theorem prime_105957871 : Nat.Prime 105957871 :=
  prime_of_check 105957871 3 27 [2, 3, 5, 19, 211, 881] (by decide +kernel)
    (by simp only [List.forall_mem_cons, List.not_mem_nil, false_implies, implies_true, and_true]; exact ⟨(by norm_num), (by norm_num), (by norm_num), (by norm_num), (by norm_num), (by norm_num)⟩)

theorem prime_529709925838459440593 : Nat.Prime 529709925838459440593 :=
  prime_of_check 529709925838459440593 3 69 [2, 2, 2, 2, 7, 181, 105957871, 246608641] (by decide +kernel)
    (by simp only [List.forall_mem_cons, List.not_mem_nil, false_implies, implies_true, and_true]; exact ⟨(by norm_num), (by norm_num), (by norm_num), (by norm_num), (by norm_num), (by norm_num), prime_105957871, prime_246608641⟩)

theorem prime_334_47526097 : Nat.Prime 19173790298027098165721053155794528970226934547887232785722672956982046098136719667167519737147526097 :=
  prime_of_check 19173790298027098165721053155794528970226934547887232785722672956982046098136719667167519737147526097 3 334 [2, 2, 2, 2, 11, 11, 11, 8389, 38557, 312289, 1357291859799823621, 529709925838459440593, 12397338596863679689524759770405177749801411] (by decide +kernel)
    (by simp only [List.forall_mem_cons, List.not_mem_nil, false_implies, implies_true, and_true]; exact ⟨(by norm_num), (by norm_num), (by norm_num), (by norm_num), (by norm_num), (by norm_num), (by norm_num), (by norm_num), (by norm_num), (by norm_num), prime_1357291859799823621, prime_529709925838459440593, prime_144_49801411⟩)

theorem prime_384_73112319 : Nat.Prime 39402006196394479212279040100143613805079739270465446667948293404245721771496870329047266088258938001861606973112319 :=
  prime_of_check 39402006196394479212279040100143613805079739270465446667948293404245721771496870329047266088258938001861606973112319 19 384 [2, 19, 67, 807145746439, 19173790298027098165721053155794528970226934547887232785722672956982046098136719667167519737147526097] (by decide +kernel)
    (by simp only [List.forall_mem_cons, List.not_mem_nil, false_implies, implies_true, and_true]; exact ⟨(by norm_num), (by norm_num), (by norm_num), prime_807145746439, prime_334_47526097⟩)

theorem prime_1436833069313 : Nat.Prime 1436833069313 :=
  prime_of_check 1436833069313 3 41 [2, 2, 2, 2, 2, 2, 2, 2, 16979, 330563] (by decide +kernel)
    (by simp only [List.forall_mem_cons, List.not_mem_nil, false_implies, implies_true, and_true]; exact ⟨(by norm_num), (by norm_num), (by norm_num), (by norm_num), (by norm_num), (by norm_num), (by norm_num), (by norm_num), (by norm_num), (by norm_num)⟩)

theorem prime_8463023 : Nat.Prime 8463023 :=
  prime_of_check 8463023 5 24 [2, 113, 37447] (by decide +kernel)
    (by simp only [List.forall_mem_cons, List.not_mem_nil, false_implies, implies_true, and_true]; exact ⟨(by norm_num), (by norm_num), (by norm_num)⟩)

theorem prime_9863677 : Nat.Prime 9863677 :=
  prime_of_check 9863677 5 24 [2, 2, 3, 3, 311, 881] (by decide +kernel)
    (by simp only [List.forall_mem_cons, List.not_mem_nil, false_implies, implies_true, and_true]; exact ⟨(by norm_num), (by norm_num), (by norm_num), (by norm_num), (by norm_num), (by norm_num)⟩)

theorem prime_37344768852931 : Nat.Prime 37344768852931 :=
  prime_of_check 37344768852931 3 46 [2, 3, 5, 7, 11, 11, 149, 9863677] (by decide +kernel)
    (by simp only [List.forall_mem_cons, List.not_mem_nil, false_implies, implies_true, and_true]; exact ⟨(by norm_num), (by norm_num), (by norm_num), (by norm_num), (by norm_num), (by norm_num), (by norm_num), prime_9863677⟩)

theorem prime_55942463741690639 : Nat.Prime 55942463741690639 :=
  prime_of_check 55942463741690639 7 56 [2, 7, 107, 37344768852931] (by decide +kernel)
    (by simp only [List.forall_mem_cons, List.not_mem_nil, false_implies, implies_true, and_true]; exact ⟨(by norm_num), (by norm_num), (by norm_num), prime_37344768852931⟩)

theorem prime_272109983 : Nat.Prime 272109983 :=
  prime_of_check 272109983 5 29 [2, 19, 73, 233, 421] (by decide +kernel)
    (by simp only [List.forall_mem_cons, List.not_mem_nil, false_implies, implies_true, and_true]; exact ⟨(by norm_num), (by norm_num), (by norm_num), (by norm_num), (by norm_num)⟩)

theorem prime_228572385721 : Nat.Prime 228572385721 :=
  prime_of_check 228572385721 23 38 [2, 2, 2, 3, 5, 7, 272109983] (by decide +kernel)
    (by simp only [List.forall_mem_cons, List.not_mem_nil, false_implies, implies_true, and_true]; exact ⟨(by norm_num), (by norm_num), (by norm_num), (by norm_num), (by norm_num), (by norm_num), prime_272109983⟩)

theorem prime_23314383343543 : Nat.Prime 23314383343543 :=
  prime_of_check 23314383343543 3 45 [2, 3, 17, 228572385721] (by decide +kernel)
    (by simp only [List.forall_mem_cons, List.not_mem_nil, false_implies, implies_true, and_true]; exact ⟨(by norm_num), (by norm_num), (by norm_num), prime_228572385721⟩)

theorem prime_426632512014427833817 : Nat.Prime 426632512014427833817 :=
  prime_of_check 426632512014427833817 11 69 [2, 2, 2, 3, 13, 89, 659, 23314383343543] (by decide +kernel)
    (by simp only [List.forall_mem_cons, List.not_mem_nil, false_implies, implies_true, and_true]; exact ⟨(by norm_num), (by norm_num), (by norm_num), (by norm_num), (by norm_num), (by norm_num), (by norm_num), prime_23314383343543⟩)

theorem prime_1495199339761412565498084319 : Nat.Prime 1495199339761412565498084319 :=
  prime_of_check 1495199339761412565498084319 6 91 [2, 3, 3, 3, 64901, 426632512014427833817] (by decide +kernel)
    (by simp only [List.forall_mem_cons, List.not_mem_nil, false_implies, implies_true, and_true]; exact ⟨(by norm_num), (by norm_num), (by norm_num), (by norm_num), (by norm_num), prime_426632512014427833817⟩)

theorem prime_17942392077136950785977011829 : Nat.Prime 17942392077136950785977011829 :=
  prime_of_check 17942392077136950785977011829 6 94 [2, 2, 3, 1495199339761412565498084319] (by decide +kernel)
    (by simp only [List.forall_mem_cons, List.not_mem_nil, false_implies, implies_true, and_true]; exact ⟨(by norm_num), (by norm_num), (by norm_num), prime_1495199339761412565498084319⟩)

theorem prime_200_12096307 : Nat.Prime 1059392654943455286185473617842338478315215895509773412096307 :=
  prime_of_check 1059392654943455286185473617842338478315215895509773412096307 2 200 [2, 251, 248431, 8463023, 55942463741690639, 17942392077136950785977011829] (by decide +kernel)
    (by simp only [List.forall_mem_cons, List.not_mem_nil, false_implies, implies_true, and_true]; exact ⟨(by norm_num), (by norm_num), (by norm_num), prime_8463023, prime_55942463741690639, prime_17942392077136950785977011829⟩)

theorem prime_281_26390471 : Nat.Prime 3055465788140352002733946906144561090641249606160407884365391979704929268480326390471 :=
  prime_of_check 3055465788140352002733946906144561090641249606160407884365391979704929268480326390471 12 281 [2, 3, 5, 151, 347, 1276987, 1436833069313, 1059392654943455286185473617842338478315215895509773412096307] (by decide +kernel)
    (by simp only [List.forall_mem_cons, List.not_mem_nil, false_implies, implies_true, and_true]; exact ⟨(by norm_num), (by norm_num), (by norm_num), (by norm_num), (by norm_num), (by norm_num), prime_1436833069313, prime_200_12096307⟩)

theorem prime_290064143 : Nat.Prime 290064143 :=
  prime_of_check 290064143 5 29 [2, 79, 491, 3739] (by decide +kernel)
    (by simp only [List.forall_mem_cons, List.not_mem_nil, false_implies, implies_true, and_true]; exact ⟨(by norm_num), (by norm_num), (by norm_num), (by norm_num)⟩)

theorem prime_154950581 : Nat.Prime 154950581 :=
  prime_of_check 154950581 2 28 [2, 2, 5, 17, 455737] (by decide +kernel)
    (by simp only [List.forall_mem_cons, List.not_mem_nil, false_implies, implies_true, and_true]; exact ⟨(by norm_num), (by norm_num), (by norm_num), (by norm_num), (by norm_num)⟩)

theorem prime_120699720968197491947347 : Nat.Prime 120699720968197491947347 :=
  prime_of_check 120699720968197491947347 3 77 [2, 3, 13, 34429, 154950581, 290064143] (by decide +kernel)
    (by simp only [List.forall_mem_cons, List.not_mem_nil, false_implies, implies_true, and_true]; exact ⟨(by norm_num), (by norm_num), (by norm_num), (by norm_num), prime_154950581, prime_290064143⟩)

theorem prime_1124679999981664229965379347 : Nat.Prime 1124679999981664229965379347 :=
  prime_of_check 1124679999981664229965379347 2 90 [2, 3, 1553, 120699720968197491947347] (by decide +kernel)
    (by simp only [List.forall_mem_cons, List.not_mem_nil, false_implies, implies_true, and_true]; exact ⟨(by norm_num), (by norm_num), (by norm_num), prime_120699720968197491947347⟩)

theorem prime_384_53942643 : Nat.Prime 39402006196394479212279040100143613805079739270465446667946905279627659399113263569398956308152294913554433653942643 :=
  prime_of_check 39402006196394479212279040100143613805079739270465446667946905279627659399113263569398956308152294913554433653942643 2 384 [2, 3, 3, 7, 7, 13, 1124679999981664229965379347, 3055465788140352002733946906144561090641249606160407884365391979704929268480326390471] (by decide +kernel)
    (by simp only [List.forall_mem_cons, List.not_mem_nil, false_implies, implies_true, and_true]; exact ⟨(by norm_num), (by norm_num), (by norm_num), (by norm_num), (by norm_num), (by norm_num), prime_1124679999981664229965379347, prime_281_26390471⟩)

theorem prime_3154339 : Nat.Prime 3154339 :=
  prime_of_check 3154339 2 22 [2, 3, 3, 11, 89, 179] (by decide +kernel)
    (by simp only [List.forall_mem_cons, List.not_mem_nil, false_implies, implies_true, and_true]; exact ⟨(by norm_num), (by norm_num), (by norm_num), (by norm_num), (by norm_num), (by norm_num)⟩)

theorem prime_12617357 : Nat.Prime 12617357 :=
  prime_of_check 12617357 2 24 [2, 2, 3154339] (by decide +kernel)
    (by simp only [List.forall_mem_cons, List.not_mem_nil, false_implies, implies_true, and_true]; exact ⟨(by norm_num), (by norm_num), prime_3154339⟩)

theorem prime_11923882163 : Nat.Prime 11923882163 :=
  prime_of_check 11923882163 2 34 [2, 181, 277, 118913] (by decide +kernel)
    (by simp only [List.forall_mem_cons, List.not_mem_nil, false_implies, implies_true, and_true]; exact ⟨(by norm_num), (by norm_num), (by norm_num), (by norm_num)⟩)

theorem prime_2742492897491 : Nat.Prime 2742492897491 :=
  prime_of_check 2742492897491 6 42 [2, 5, 23, 11923882163] (by decide +kernel)
    (by simp only [List.forall_mem_cons, List.not_mem_nil, false_implies, implies_true, and_true]; exact ⟨(by norm_num), (by norm_num), (by norm_num), prime_11923882163⟩)

theorem prime_34439210165267 : Nat.Prime 34439210165267 :=
  prime_of_check 34439210165267 2 45 [2, 131, 2657, 3793, 13043] (by decide +kernel)
    (by simp only [List.forall_mem_cons, List.not_mem_nil, false_implies, implies_true, and_true]; exact ⟨(by norm_num), (by norm_num), (by norm_num), (by norm_num), (by norm_num)⟩)

theorem prime_120_95414003 : Nat.Prime 1117814976287443177659483657095414003 :=
  prime_of_check 1117814976287443177659483657095414003 2 120 [2, 7, 67, 12617357, 2742492897491, 34439210165267] (by decide +kernel)
    (by simp only [List.forall_mem_cons, List.not_mem_nil, false_implies, implies_true, and_true]; exact ⟨(by norm_num), (by norm_num), (by norm_num), prime_12617357, prime_2742492897491, prime_34439210165267⟩)

theorem prime_1316066627 : Nat.Prime 1316066627 :=
  prime_of_check 1316066627 2 31 [2, 7, 41, 59, 38861] (by decide +kernel)
    (by simp only [List.forall_mem_cons, List.not_mem_nil, false_implies, implies_true, and_true]; exact ⟨(by norm_num), (by norm_num), (by norm_num), (by norm_num), (by norm_num)⟩)

theorem prime_92246960697380603 : Nat.Prime 92246960697380603 :=
  prime_of_check 92246960697380603 2 57 [2, 1709, 20507, 1316066627] (by decide +kernel)
    (by simp only [List.forall_mem_cons, List.not_mem_nil, false_implies, implies_true, and_true]; exact ⟨(by norm_num), (by norm_num), (by norm_num), prime_1316066627⟩)

theorem prime_193_80744023 : Nat.Prime 9894712450279245035225391287211308533561263802001480744023 :=
  prime_of_check 9894712450279245035225391287211308533561263802001480744023 3 193 [2, 3, 3, 3, 1777, 92246960697380603, 1117814976287443177659483657095414003] (by decide +kernel)
    (by simp only [List.forall_mem_cons, List.not_mem_nil, false_implies, implies_true, and_true]; exact ⟨(by norm_num), (by norm_num), (by norm_num), (by norm_num), (by norm_num), prime_92246960697380603, prime_120_95414003⟩)

theorem prime_201_78565521 : Nat.Prime 2374730988067018808454093908930714048054703312480355378565521 :=
  prime_of_check 2374730988067018808454093908930714048054703312480355378565521 22 201 [2, 2, 2, 2, 3, 5, 9894712450279245035225391287211308533561263802001480744023] (by decide +kernel)
    (by simp only [List.forall_mem_cons, List.not_mem_nil, false_implies, implies_true, and_true]; exact ⟨(by norm_num), (by norm_num), (by norm_num), (by norm_num), (by norm_num), (by norm_num), prime_193_80744023⟩)

theorem prime_235_83730599 : Nat.Prime 51804625509771251553534546678595322522265033968214829542043448183730599 :=
  prime_of_check 51804625509771251553534546678595322522265033968214829542043448183730599 11 235 [2, 31, 137, 337, 7621, 2374730988067018808454093908930714048054703312480355378565521] (by decide +kernel)
    (by simp only [List.forall_mem_cons, List.not_mem_nil, false_implies, implies_true, and_true]; exact ⟨(by norm_num), (by norm_num), (by norm_num), (by norm_num), (by norm_num), prime_201_78565521⟩)

theorem prime_361_81304511 : Nat.Prime 3636410625392624440351547907325502812950802686368714273274221490761556277859337865760708490235892541081304511 :=
  prime_of_checkPlus 3636410625392624440351547907325502812950802686368714273274221490761556277859337865760708490235892541081304511 11 362
    51804625509771251553534546678595322522265033968214829542043448183730599 (727282125078524888070309581465100562590160537273742854654844298152311255571867573152141698047178508216260901, 727282125078524888070309581465100562590160537273742854654844298152311255571867573152141698047178508216260902) (by decide +kernel) prime_235_83730599

theorem prime_391_80171943 : Nat.Prime 3615194794881930010216942559103847593050265703173292383701371712350878926821661243755933835426896058418509759880171943 :=
  prime_of_check 3615194794881930010216942559103847593050265703173292383701371712350878926821661243755933835426896058418509759880171943 3 391 [2, 3, 3, 11, 31, 161969, 3636410625392624440351547907325502812950802686368714273274221490761556277859337865760708490235892541081304511] (by decide +kernel)
    (by simp only [List.forall_mem_cons, List.not_mem_nil, false_implies, implies_true, and_true]; exact ⟨(by norm_num), (by norm_num), (by norm_num), (by norm_num), (by norm_num), (by norm_num), prime_361_81304511⟩)

theorem prime_186406729 : Nat.Prime 186406729 :=
  prime_of_check 186406729 7 28 [2, 2, 2, 3, 61, 157, 811] (by decide +kernel)
    (by simp only [List.forall_mem_cons, List.not_mem_nil, false_implies, implies_true, and_true]; exact ⟨(by norm_num), (by norm_num), (by norm_num), (by norm_num), (by norm_num), (by norm_num), (by norm_num)⟩)

theorem prime_88599952463812275001 : Nat.Prime 88599952463812275001 :=
  prime_of_check 88599952463812275001 11 67 [2, 2, 2, 3, 5, 5, 5, 5, 5, 19, 281, 1187, 186406729] (by decide +kernel)
    (by simp only [List.forall_mem_cons, List.not_mem_nil, false_implies, implies_true, and_true]; exact ⟨(by norm_num), (by norm_num), (by norm_num), (by norm_num), (by norm_num), (by norm_num), (by norm_num), (by norm_num), (by norm_num), (by norm_num), (by norm_num), (by norm_num), prime_186406729⟩)

theorem prime_1647781915921980690468599 : Nat.Prime 1647781915921980690468599 :=
  prime_of_check 1647781915921980690468599 13 81 [2, 17, 547, 88599952463812275001] (by decide +kernel)
    (by simp only [List.forall_mem_cons, List.not_mem_nil, false_implies, implies_true, and_true]; exact ⟨(by norm_num), (by norm_num), (by norm_num), prime_88599952463812275001⟩)

theorem prime_1458105463 : Nat.Prime 1458105463 :=
  prime_of_check 1458105463 3 31 [2, 3, 3, 3, 3, 3, 11, 311, 877] (by decide +kernel)
    (by simp only [List.forall_mem_cons, List.not_mem_nil, false_implies, implies_true, and_true]; exact ⟨(by norm_num), (by norm_num), (by norm_num), (by norm_num), (by norm_num), (by norm_num), (by norm_num), (by norm_num), (by norm_num)⟩)

theorem prime_521_7005449 : Nat.Prime 6864797660130609714981900799081393217269435300143305409394463459185543183397655394245057746333217197532963996371363321113864768612440380340372808892707005449 :=
  prime_of_check 6864797660130609714981900799081393217269435300143305409394463459185543183397655394245057746333217197532963996371363321113864768612440380340372808892707005449 3 521 [2, 2, 2, 7, 11, 1283, 1458105463, 1647781915921980690468599, 3615194794881930010216942559103847593050265703173292383701371712350878926821661243755933835426896058418509759880171943] (by decide +kernel)
    (by simp only [List.forall_mem_cons, List.not_mem_nil, false_implies, implies_true, and_true]; exact ⟨(by norm_num), (by norm_num), (by norm_num), (by norm_num), (by norm_num), (by norm_num), prime_1458105463, prime_1647781915921980690468599, prime_391_80171943⟩)

theorem prime_p521 : Nat.Prime 6864797660130609714981900799081393217269435300143305409394463459185543183397656052122559640661454554977296311391480858037121987999716643812574028291115057151 := by
  have h : Nat.Prime (mersenne 521) := lucas_lehmer_sufficiency _ (by simp) (by norm_num)
  have e : mersenne 521 = 6864797660130609714981900799081393217269435300143305409394463459185543183397656052122559640661454554977296311391480858037121987999716643812574028291115057151 := by
    decide +kernel
  rwa [e] at h

theorem prime_p224 : Nat.Prime 26959946667150639794667015087019630673557916260026308143510066298881 := prime_224_66298881

theorem prime_n224 : Nat.Prime 26959946667150639794667015087019625940457807714424391721682722368061 := prime_224_22368061

theorem prime_p256 : Nat.Prime 115792089210356248762697446949407573530086143415290314195533631308867097853951 := prime_256_97853951

theorem prime_n256 : Nat.Prime 115792089210356248762697446949407573529996955224135760342422259061068512044369 := prime_256_12044369

theorem prime_p384 : Nat.Prime 39402006196394479212279040100143613805079739270465446667948293404245721771496870329047266088258938001861606973112319 := prime_384_73112319

theorem prime_n384 : Nat.Prime 39402006196394479212279040100143613805079739270465446667946905279627659399113263569398956308152294913554433653942643 := prime_384_53942643

theorem prime_n521 : Nat.Prime 6864797660130609714981900799081393217269435300143305409394463459185543183397655394245057746333217197532963996371363321113864768612440380340372808892707005449 := prime_521_7005449

end Verif.CurvePrimes
