import Verif.Proofs.PrimeCert
import Mathlib.Tactic.NormNum.Prime

/-
Generated primality certificates (Pocklington and Morrison) for the shipped moduli of up
to 512 bits and for the BLS12-381 scalar field order.
-/

namespace PoS

theorem prime_17 : Nat.Prime 17 := by norm_num

theorem prime_5 : Nat.Prime 5 := by norm_num

theorem prime_5441 : Nat.Prime 5441 :=
  pocklington 15 [(17, 2), (5, 3)] (by norm_num)
    (by
      intro c hc
      simp only [List.mem_cons, List.not_mem_nil, or_false] at hc
      rcases hc with rfl | rfl
      · exact prime_17
      · exact prime_5)
    (by decide +kernel) (by decide +kernel) (by decide +kernel)

theorem prime_107 : Nat.Prime 107 := by norm_num

theorem prime_296915371 : Nat.Prime 296915371 :=
  pocklington 31 [(5441, 2), (107, 2)] (by norm_num)
    (by
      intro c hc
      simp only [List.mem_cons, List.not_mem_nil, or_false] at hc
      rcases hc with rfl | rfl
      · exact prime_5441
      · exact prime_107)
    (by decide +kernel) (by decide +kernel) (by decide +kernel)

theorem prime_89 : Nat.Prime 89 := by norm_num

theorem prime_79 : Nat.Prime 79 := by norm_num

theorem prime_56249 : Nat.Prime 56249 :=
  pocklington 18 [(89, 2), (79, 2)] (by norm_num)
    (by
      intro c hc
      simp only [List.mem_cons, List.not_mem_nil, or_false] at hc
      rcases hc with rfl | rfl
      · exact prime_89
      · exact prime_79)
    (by decide +kernel) (by decide +kernel) (by decide +kernel)

theorem prime_c13758676_64 : Nat.Prime 13758676365741467507 :=
  pocklington 66 [(296915371, 2), (56249, 2)] (by norm_num)
    (by
      intro c hc
      simp only [List.mem_cons, List.not_mem_nil, or_false] at hc
      rcases hc with rfl | rfl
      · exact prime_296915371
      · exact prime_56249)
    (by decide +kernel) (by decide +kernel) (by decide +kernel)

theorem prime_1951 : Nat.Prime 1951 := by norm_num

theorem prime_409711 : Nat.Prime 409711 :=
  pocklington 21 [(1951, 2)] (by norm_num)
    (by
      intro c hc
      simp only [List.mem_cons, List.not_mem_nil, or_false] at hc
      rcases hc with rfl
      · exact prime_1951)
    (by decide +kernel) (by decide +kernel) (by decide +kernel)

theorem prime_53 : Nat.Prime 53 := by norm_num

theorem prime_37 : Nat.Prime 37 := by norm_num

theorem prime_152959 : Nat.Prime 152959 :=
  pocklington 20 [(53, 2), (37, 2)] (by norm_num)
    (by
      intro c hc
      simp only [List.mem_cons, List.not_mem_nil, or_false] at hc
      rcases hc with rfl | rfl
      · exact prime_53
      · exact prime_37)
    (by decide +kernel) (by decide +kernel) (by decide +kernel)

theorem prime_c74776632_53 : Nat.Prime 7477663272182681 :=
  pocklington 55 [(409711, 2), (152959, 2)] (by norm_num)
    (by
      intro c hc
      simp only [List.mem_cons, List.not_mem_nil, or_false] at hc
      rcases hc with rfl | rfl
      · exact prime_409711
      · exact prime_152959)
    (by decide +kernel) (by decide +kernel) (by decide +kernel)

theorem prime_c23300847_75 : Nat.Prime 23300847415917564956861 :=
  pocklington 77 [(7477663272182681, 2)] (by norm_num)
    (by
      intro c hc
      simp only [List.mem_cons, List.not_mem_nil, or_false] at hc
      rcases hc with rfl
      · exact prime_c74776632_53)
    (by decide +kernel) (by decide +kernel) (by decide +kernel)

theorem prime_c28496601_128 : Nat.Prime 284966011836017917039797442435648636163 :=
  pocklington 130 [(23300847415917564956861, 2)] (by norm_num)
    (by
      intro c hc
      simp only [List.mem_cons, List.not_mem_nil, or_false] at hc
      rcases hc with rfl
      · exact prime_c23300847_75)
    (by decide +kernel) (by decide +kernel) (by decide +kernel)

theorem prime_743 : Nat.Prime 743 := by norm_num

theorem prime_104021 : Nat.Prime 104021 :=
  pocklington 19 [(743, 2)] (by norm_num)
    (by
      intro c hc
      simp only [List.mem_cons, List.not_mem_nil, or_false] at hc
      rcases hc with rfl
      · exact prime_743)
    (by decide +kernel) (by decide +kernel) (by decide +kernel)

theorem prime_8113639 : Nat.Prime 8113639 :=
  pocklington 25 [(104021, 2)] (by norm_num)
    (by
      intro c hc
      simp only [List.mem_cons, List.not_mem_nil, or_false] at hc
      rcases hc with rfl
      · exact prime_104021)
    (by decide +kernel) (by decide +kernel) (by decide +kernel)

theorem prime_188681 : Nat.Prime 188681 :=
  pocklington 20 [(89, 2), (53, 2)] (by norm_num)
    (by
      intro c hc
      simp only [List.mem_cons, List.not_mem_nil, or_false] at hc
      rcases hc with rfl | rfl
      · exact prime_89
      · exact prime_53)
    (by decide +kernel) (by decide +kernel) (by decide +kernel)

theorem prime_c44646557_72 : Nat.Prime 4464655799249395322897 :=
  pocklington 74 [(8113639, 2), (188681, 2)] (by norm_num)
    (by
      intro c hc
      simp only [List.mem_cons, List.not_mem_nil, or_false] at hc
      rcases hc with rfl | rfl
      · exact prime_8113639
      · exact prime_188681)
    (by decide +kernel) (by decide +kernel) (by decide +kernel)

theorem prime_c81328170_87 : Nat.Prime 81328170039126985201891753 :=
  pocklington 89 [(4464655799249395322897, 2)] (by norm_num)
    (by
      intro c hc
      simp only [List.mem_cons, List.not_mem_nil, or_false] at hc
      rcases hc with rfl
      · exact prime_c44646557_72)
    (by decide +kernel) (by decide +kernel) (by decide +kernel)

theorem prime_c67383264_126 : Nat.Prime 67383264654847110656380881825996327493 :=
  pocklington 128 [(81328170039126985201891753, 2)] (by norm_num)
    (by
      intro c hc
      simp only [List.mem_cons, List.not_mem_nil, or_false] at hc
      rcases hc with rfl
      · exact prime_c81328170_87)
    (by decide +kernel) (by decide +kernel) (by decide +kernel)

theorem prime_c41468105_149 : Nat.Prime 414681057981396338888671267895381915149536539 :=
  pocklington 151 [(67383264654847110656380881825996327493, 2)] (by norm_num)
    (by
      intro c hc
      simp only [List.mem_cons, List.not_mem_nil, or_false] at hc
      rcases hc with rfl
      · exact prime_c67383264_126)
    (by decide +kernel) (by decide +kernel) (by decide +kernel)

theorem prime_c20710039_174 : Nat.Prime 20710039548364230245241198218987809981534347588099589 :=
  pocklington 176 [(414681057981396338888671267895381915149536539, 2)] (by norm_num)
    (by
      intro c hc
      simp only [List.mem_cons, List.not_mem_nil, or_false] at hc
      rcases hc with rfl
      · exact prime_c41468105_149)
    (by decide +kernel) (by decide +kernel) (by decide +kernel)

theorem prime_c79128031_256 : Nat.Prime 79128031240076844063259589759962924441255910968111729611693920152825864722707 :=
  pocklington 258 [(20710039548364230245241198218987809981534347588099589, 2)] (by norm_num)
    (by
      intro c hc
      simp only [List.mem_cons, List.not_mem_nil, or_false] at hc
      rcases hc with rfl
      · exact prime_c20710039_174)
    (by decide +kernel) (by decide +kernel) (by decide +kernel)

theorem prime_463 : Nat.Prime 463 := by norm_num

theorem prime_5557 : Nat.Prime 5557 :=
  pocklington 15 [(463, 2)] (by norm_num)
    (by
      intro c hc
      simp only [List.mem_cons, List.not_mem_nil, or_false] at hc
      rcases hc with rfl
      · exact prime_463)
    (by decide +kernel) (by decide +kernel) (by decide +kernel)

theorem prime_11758613 : Nat.Prime 11758613 :=
  pocklington 26 [(5557, 2)] (by norm_num)
    (by
      intro c hc
      simp only [List.mem_cons, List.not_mem_nil, or_false] at hc
      rcases hc with rfl
      · exact prime_5557)
    (by decide +kernel) (by decide +kernel) (by decide +kernel)

theorem prime_491 : Nat.Prime 491 := by norm_num

theorem prime_67759 : Nat.Prime 67759 :=
  pocklington 19 [(491, 2)] (by norm_num)
    (by
      intro c hc
      simp only [List.mem_cons, List.not_mem_nil, or_false] at hc
      rcases hc with rfl
      · exact prime_491)
    (by decide +kernel) (by decide +kernel) (by decide +kernel)

theorem prime_c13487415_54 : Nat.Prime 13487415456743777 :=
  pocklington 56 [(11758613, 2), (67759, 2)] (by norm_num)
    (by
      intro c hc
      simp only [List.mem_cons, List.not_mem_nil, or_false] at hc
      rcases hc with rfl | rfl
      · exact prime_11758613
      · exact prime_67759)
    (by decide +kernel) (by decide +kernel) (by decide +kernel)

theorem prime_233 : Nat.Prime 233 := by norm_num

theorem prime_7457 : Nat.Prime 7457 :=
  pocklington 15 [(233, 2)] (by norm_num)
    (by
      intro c hc
      simp only [List.mem_cons, List.not_mem_nil, or_false] at hc
      rcases hc with rfl
      · exact prime_233)
    (by decide +kernel) (by decide +kernel) (by decide +kernel)

theorem prime_1171 : Nat.Prime 1171 := by norm_num

theorem prime_7027 : Nat.Prime 7027 :=
  pocklington 15 [(1171, 2)] (by norm_num)
    (by
      intro c hc
      simp only [List.mem_cons, List.not_mem_nil, or_false] at hc
      rcases hc with rfl
      · exact prime_1171)
    (by decide +kernel) (by decide +kernel) (by decide +kernel)

theorem prime_7860050851 : Nat.Prime 7860050851 :=
  pocklington 35 [(7457, 2), (7027, 2)] (by norm_num)
    (by
      intro c hc
      simp only [List.mem_cons, List.not_mem_nil, or_false] at hc
      rcases hc with rfl | rfl
      · exact prime_7457
      · exact prime_7027)
    (by decide +kernel) (by decide +kernel) (by decide +kernel)

theorem prime_c23338062_48 : Nat.Prime 233380629867893 :=
  pocklington 50 [(7860050851, 2)] (by norm_num)
    (by
      intro c hc
      simp only [List.mem_cons, List.not_mem_nil, or_false] at hc
      rcases hc with rfl
      · exact prime_7860050851)
    (by decide +kernel) (by decide +kernel) (by decide +kernel)

theorem prime_c65472191_110 : Nat.Prime 654721915033642233667855649187089 :=
  pocklington 112 [(13487415456743777, 2), (233380629867893, 2)] (by norm_num)
    (by
      intro c hc
      simp only [List.mem_cons, List.not_mem_nil, or_false] at hc
      rcases hc with rfl | rfl
      · exact prime_c13487415_54
      · exact prime_c23338062_48)
    (by decide +kernel) (by decide +kernel) (by decide +kernel)

theorem prime_c11138154_150 : Nat.Prime 1113815420390600437170508024527111410286925843 :=
  pocklington 152 [(654721915033642233667855649187089, 2)] (by norm_num)
    (by
      intro c hc
      simp only [List.mem_cons, List.not_mem_nil, or_false] at hc
      rcases hc with rfl
      · exact prime_c65472191_110)
    (by decide +kernel) (by decide +kernel) (by decide +kernel)

theorem prime_c63694192_292 : Nat.Prime 6369419253629980028217843048331020909419109724307016815883218720436993447973834382554627 :=
  pocklington 294 [(1113815420390600437170508024527111410286925843, 2)] (by norm_num)
    (by
      intro c hc
      simp only [List.mem_cons, List.not_mem_nil, or_false] at hc
      rcases hc with rfl
      · exact prime_c11138154_150)
    (by decide +kernel) (by decide +kernel) (by decide +kernel)

theorem prime_c44999162_342 : Nat.Prime 4499916238356380770751661976721119060573144233399989923256156695095146677590374125468184340762285455621 :=
  morrison 344 2 6369419253629980028217843048331020909419109724307016815883218720436993447973834382554627
    3
    2
    (by norm_num) prime_c63694192_292 (by decide +kernel) (by decide +kernel)

theorem prime_c56940891_475 : Nat.Prime 56940891256732071801930553256293481427873156536825286117328568550171059972645850367273746613183574945565251729009126567999571769295801807995949 :=
  morrison 477 2 4499916238356380770751661976721119060573144233399989923256156695095146677590374125468184340762285455621
    3
    2
    (by norm_num) prime_c44999162_342 (by decide +kernel) (by decide +kernel)

theorem prime_c10711734_512 : Nat.Prime 10711734159436774894171334484137626675507759979749407253125221261168087448899876831488509454695461974257751111853456275453329348448922191916590010377596767 :=
  pocklington 514 [(56940891256732071801930553256293481427873156536825286117328568550171059972645850367273746613183574945565251729009126567999571769295801807995949, 2)] (by norm_num)
    (by
      intro c hc
      simp only [List.mem_cons, List.not_mem_nil, or_false] at hc
      rcases hc with rfl
      · exact prime_c56940891_475)
    (by decide +kernel) (by decide +kernel) (by decide +kernel)

theorem prime_359 : Nat.Prime 359 := by norm_num

theorem prime_110573 : Nat.Prime 110573 :=
  pocklington 19 [(359, 2)] (by norm_num)
    (by
      intro c hc
      simp only [List.mem_cons, List.not_mem_nil, or_false] at hc
      rcases hc with rfl
      · exact prime_359)
    (by decide +kernel) (by decide +kernel) (by decide +kernel)

theorem prime_2653753 : Nat.Prime 2653753 :=
  pocklington 24 [(110573, 2)] (by norm_num)
    (by
      intro c hc
      simp only [List.mem_cons, List.not_mem_nil, or_false] at hc
      rcases hc with rfl
      · exact prime_110573)
    (by decide +kernel) (by decide +kernel) (by decide +kernel)

theorem prime_63690073 : Nat.Prime 63690073 :=
  pocklington 28 [(2653753, 2)] (by norm_num)
    (by
      intro c hc
      simp only [List.mem_cons, List.not_mem_nil, or_false] at hc
      rcases hc with rfl
      · exact prime_2653753)
    (by decide +kernel) (by decide +kernel) (by decide +kernel)

theorem prime_254760293 : Nat.Prime 254760293 :=
  pocklington 30 [(63690073, 2)] (by norm_num)
    (by
      intro c hc
      simp only [List.mem_cons, List.not_mem_nil, or_false] at hc
      rcases hc with rfl
      · exact prime_63690073)
    (by decide +kernel) (by decide +kernel) (by decide +kernel)

theorem prime_449 : Nat.Prime 449 := by norm_num

theorem prime_97 : Nat.Prime 97 := by norm_num

theorem prime_609743 : Nat.Prime 609743 :=
  pocklington 22 [(449, 2), (97, 2)] (by norm_num)
    (by
      intro c hc
      simp only [List.mem_cons, List.not_mem_nil, or_false] at hc
      rcases hc with rfl | rfl
      · exact prime_449
      · exact prime_97)
    (by decide +kernel) (by decide +kernel) (by decide +kernel)

theorem prime_52437899 : Nat.Prime 52437899 :=
  pocklington 28 [(609743, 2)] (by norm_num)
    (by
      intro c hc
      simp only [List.mem_cons, List.not_mem_nil, or_false] at hc
      rcases hc with rfl
      · exact prime_609743)
    (by decide +kernel) (by decide +kernel) (by decide +kernel)

theorem prime_29 : Nat.Prime 29 := by norm_num

theorem prime_18329 : Nat.Prime 18329 :=
  pocklington 17 [(79, 2), (29, 2)] (by norm_num)
    (by
      intro c hc
      simp only [List.mem_cons, List.not_mem_nil, or_false] at hc
      rcases hc with rfl | rfl
      · exact prime_79
      · exact prime_29)
    (by decide +kernel) (by decide +kernel) (by decide +kernel)

theorem prime_2529403 : Nat.Prime 2529403 :=
  pocklington 24 [(18329, 2)] (by norm_num)
    (by
      intro c hc
      simp only [List.mem_cons, List.not_mem_nil, or_false] at hc
      rcases hc with rfl
      · exact prime_18329)
    (by decide +kernel) (by decide +kernel) (by decide +kernel)

theorem prime_7 : Nat.Prime 7 := by norm_num

theorem prime_3 : Nat.Prime 3 := by norm_num

theorem prime_2508409 : Nat.Prime 2508409 :=
  pocklington 24 [(79, 2), (7, 2), (3, 2)] (by norm_num)
    (by
      intro c hc
      simp only [List.mem_cons, List.not_mem_nil, or_false] at hc
      rcases hc with rfl | rfl | rfl
      · exact prime_79
      · exact prime_7
      · exact prime_3)
    (by decide +kernel) (by decide +kernel) (by decide +kernel)

theorem prime_1607 : Nat.Prime 1607 := by norm_num

theorem prime_906349 : Nat.Prime 906349 :=
  pocklington 22 [(1607, 2)] (by norm_num)
    (by
      intro c hc
      simp only [List.mem_cons, List.not_mem_nil, or_false] at hc
      rcases hc with rfl
      · exact prime_1607)
    (by decide +kernel) (by decide +kernel) (by decide +kernel)

theorem prime_13 : Nat.Prime 13 := by norm_num

theorem prime_47737 : Nat.Prime 47737 :=
  pocklington 18 [(17, 2), (13, 2)] (by norm_num)
    (by
      intro c hc
      simp only [List.mem_cons, List.not_mem_nil, or_false] at hc
      rcases hc with rfl | rfl
      · exact prime_17
      · exact prime_13)
    (by decide +kernel) (by decide +kernel) (by decide +kernel)

theorem prime_859267 : Nat.Prime 859267 :=
  pocklington 22 [(47737, 2)] (by norm_num)
    (by
      intro c hc
      simp only [List.mem_cons, List.not_mem_nil, or_false] at hc
      rcases hc with rfl
      · exact prime_47737)
    (by decide +kernel) (by decide +kernel) (by decide +kernel)

theorem prime_c52435875_255 : Nat.Prime 52435875175126190479447740508185965837690552500527637822603658699938581184513 :=
  pocklington 257 [(254760293, 2), (52437899, 2), (2529403, 2), (2508409, 2), (906349, 2), (859267, 2)] (by norm_num)
    (by
      intro c hc
      simp only [List.mem_cons, List.not_mem_nil, or_false] at hc
      rcases hc with rfl | rfl | rfl | rfl | rfl | rfl
      · exact prime_254760293
      · exact prime_52437899
      · exact prime_2529403
      · exact prime_2508409
      · exact prime_906349
      · exact prime_859267)
    (by decide +kernel) (by decide +kernel) (by decide +kernel)

theorem prime_P_64 : Nat.Prime 13758676365741467507 := prime_c13758676_64

theorem prime_P_128 : Nat.Prime 284966011836017917039797442435648636163 := prime_c28496601_128

theorem prime_P_256 : Nat.Prime 79128031240076844063259589759962924441255910968111729611693920152825864722707 := prime_c79128031_256

theorem prime_P_512 : Nat.Prime 10711734159436774894171334484137626675507759979749407253125221261168087448899876831488509454695461974257751111853456275453329348448922191916590010377596767 := prime_c10711734_512

theorem prime_bls_r : Nat.Prime 52435875175126190479447740508185965837690552500527637822603658699938581184513 := prime_c52435875_255

end PoS
