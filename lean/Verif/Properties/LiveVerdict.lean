import Verif.Properties.Live
import Verif.Properties.Decoding

/-
C119, continued: the verdict on an answer whose parts were read from different contents of the file.
-/

namespace PoS

/-- The verdict, whatever contents the reads find.  There always is an answer.  It is accepted exactly if unsealing the
challenged blocks, each as its own read found it, with the identifier of the block before as found by the second read
and the dependency blocks named by this identifier as found by the others, gives units that begin with the bytes of
the original; sequentially, and in parallel under every complete schedule. -/
theorem C119_verdict (H Hs : Bytes → Bytes) (hH : ∀ x, (H x).length = 32) (hHs : ∀ x, (Hs x).length = 32)
    (params : PosPara) (p n c : Nat) (cfg : Config params p n c) (hL : LongModeOk params n)
    (hSc : ShortModeOk params c c) (hSn : ShortModeOk params n c) (origin pubdata iv : Bytes)
    (hload : loadData pubdata = .ok ((p : Int), iv)) (ids : List Bytes) (hids : ids.length = n) (leaves : List Bytes)
    (tree : MerkleTree) (root : Bytes) (hm : generateMerkleTreeFromData Hs ids = .ok (leaves, tree, root)) (r : UInt8)
    (indices : List Nat) (hs : indices.Pairwise (· < ·)) (hne : indices ≠ []) (hlt : ∀ k ∈ indices, k < n)
    (own before : Nat → Bytes) (dep : Nat → Nat → Bytes)
    (id : Nat → Bytes) (hid : ∀ k, id k = H (readFile (before k) ((k - 1) * params.blockPl) params.blockPl))
    (found : Nat → Nat → List Bytes) (hfound : ∀ k m, found k m = plainUnits params c (dep k m)
      ((longOf H params n (id k) k).getD m 0))
    (S S' : Sealing) (hd : describes S H params p c c iv) (hd' : describes S' H params p n c iv)
    (right : Sealing → Nat → Prop) (hright : ∀ T k, right T k ↔ ∀ j < c, ∀ t < params.unitL,
      ((T.unsealOne ((undelay p)^[params.vdeRounds]) ((List.range (longOf H params n (id k) k).length).map (found k))
        (if k = 0 then iv else id k) (plainUnits params c (own k) k)).getD j []).getD t 0 =
      origin[k * params.blockL + j * params.unitL + t]?.getD 0) :
    ∃ resp, proverRespondLive own before dep H params tree r indices = .ok resp ∧
      (verifierCheck H Hs params origin pubdata leaves root r indices resp 0 [] = .ok (some ()) ↔
        ∀ k ∈ indices, right S k) ∧
      ∀ workers sched outs, 0 < workers →
        batchUnsealParallel H params indices resp.blocks resp.beforeIds resp.dependBlocks (p : Int) iv workers sched =
          .ok (some outs) →
        (verifierCheck H Hs params origin pubdata leaves root r indices resp workers sched = .ok (some ()) ↔
          ∀ k ∈ indices, right S' k) := by
  have hidne : ids ≠ [] := by
    rintro rfl
    cases indices with
    | nil => exact hne rfl
    | cons a l => have := hlt a (by simp); simp at hids; omega
  obtain ⟨lv, tr, ro, proof, m1, -, m2, m3⟩ := C31_completeness Hs hHs ids hidne indices hs hne
    (fun k hk => by rw [hids]; exact hlt k hk)
  rw [hm] at m1
  cases m1
  let deps : Nat → List (List Bytes) := fun k => (List.range (longOf H params n (id k) k).length).map (found k)
  let pr : Nat → Prepared := fun k => ⟨plainUnits params c (own k) k, (if k ≠ 0 then id k else []), deps k⟩
  have hpr : ∀ k ∈ indices, singleUnsealPrepareLive (own k) (before k) (dep k) H params k = .ok (pr k) := by
    intro k hk
    rw [C119_prepare H hH params p n c cfg hL (own k) (before k) (dep k) k (hlt k hk) (id k) (hid k)]
    congr 2
    apply List.ext_getElem?
    intro m
    by_cases hm : m < (longOf H params n (id k) k).length
    · simp [deps, hm, hfound]
    · rw [List.getElem?_eq_none (by simpa using hm), List.getElem?_eq_none (by simpa [deps] using hm)]
  have hresp := C119_respond own before dep H params tree r indices pr proof hpr m2
  refine ⟨_, hresp, ?_⟩
  have wf : WellFormed params c indices (indices.map fun k => (pr k).block) (indices.map fun k => (pr k).beforeId)
      (indices.map fun k => (pr k).dependBlocks) := by
    refine ⟨by simp, by simp, by simp, fun b hb => ?_, fun d hd b hb => ?_⟩
    · obtain ⟨k, hk, rfl⟩ := List.mem_map.mp hb
      refine ⟨by simp [pr, plainUnits], fun u hu => ?_⟩
      simp only [pr, plainUnits, List.mem_map] at hu
      obtain ⟨j, -, rfl⟩ := hu
      exact readFile_length _ _ _
    · obtain ⟨k, hk, rfl⟩ := List.mem_map.mp hd
      simp only [pr, deps, List.mem_map] at hb
      obtain ⟨m, -, rfl⟩ := hb
      rw [hfound]
      simp [plainUnits]
  have hdec : ∀ (T : Sealing) (i : Nat) (hi : i < indices.length),
      (decodedBlocks T ((undelay p)^[params.vdeRounds]) iv indices (indices.map fun k => (pr k).block)
        (indices.map fun k => (pr k).beforeId) (indices.map fun k => (pr k).dependBlocks)).getD i [] =
      T.unsealOne ((undelay p)^[params.vdeRounds]) (deps indices[i])
        (if indices[i] = 0 then iv else id indices[i]) (plainUnits params c (own indices[i]) indices[i]) := by
    intro T i hi
    unfold decodedBlocks
    simp only [List.getD_eq_getElem?_getD, List.getElem?_map, List.getElem?_range hi, Option.map_some,
      Option.getD_some, List.getElem?_eq_getElem hi, pr]
    by_cases h0 : indices[i] = 0
    · simp [h0]
    · simp [h0]
  have hall : ∀ T : Sealing, (∀ i < indices.length, ∀ j < c, ∀ t < params.unitL,
      ((((decodedBlocks T ((undelay p)^[params.vdeRounds]) iv indices (indices.map fun k => (pr k).block)
        (indices.map fun k => (pr k).beforeId) (indices.map fun k => (pr k).dependBlocks)).getD i []).getD j []).getD t 0) =
        origin[indices.getD i 0 * params.blockL + j * params.unitL + t]?.getD 0) ↔ ∀ k ∈ indices, right T k := by
    intro T
    constructor
    · intro h k hk
      obtain ⟨i, hi, rfl⟩ := List.getElem_of_mem hk
      rw [hright]
      intro j hj t ht
      have := h i hi j hj t ht
      rw [hdec T i hi] at this
      simpa [List.getD_eq_getElem?_getD, List.getElem?_eq_getElem hi] using this
    · intro h i hi j hj t ht
      have := (hright T _).mp (h _ (List.getElem_mem hi)) j hj t ht
      rw [hdec T i hi]
      simpa [List.getD_eq_getElem?_getD, List.getElem?_eq_getElem hi] using this
  constructor
  · rw [C81_verdict H Hs hH params p n c cfg hSc origin pubdata iv hload _ _ _ _ _ wf, ← hall]
    have e : decodedBlocks (sealingOf H params p c iv (longOf H params n) (shortOf H params c c)) =
        decodedBlocks S := by
      rw [describes_sealingOf hd]
      rfl
    rw [e]
    exact ⟨fun h => h.2.2, fun h => ⟨rfl, m3, h⟩⟩
  · intro workers sched outs hw hpar
    rw [C81_verdict_parallel H Hs hH params p n c cfg hSn origin pubdata iv hload _ _ _ _ _ wf workers hw sched, ← hall]
    have e : decodedBlocks (sealingOf H params p c iv (longOf H params n) (shortOf H params n c)) =
        decodedBlocks S' := by
      rw [describes_sealingOf hd']
    rw [e]
    exact ⟨fun h => h.2.2.2, fun h => ⟨rfl, m3, ⟨outs, hpar⟩, h⟩⟩

end PoS
