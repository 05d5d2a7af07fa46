import Verif.Properties.Loss
import Verif.Properties.Replica
import Verif.Properties.Merkle

/-
C121: the identifiers recorded while sealing, and their Merkle root, commit to the original file.
-/

set_option linter.unusedSectionVars false

namespace PoS

section

variable {H : Bytes → Bytes} (hH : ∀ x, (H x).length = 32) {params : PosPara}
  {p n c : Nat} (cfg : Config params p n c) (hL : LongModeOk params n) (hS : ShortModeOk params n c)

theorem canonical_plain {p n c : Nat} {params : PosPara} {H : Bytes → Bytes} {iv file : Bytes}
    (hu : UnitsBelow params p n c file) {S : Sealing} (hd : describes S H params p n c iv) {k : Nat} (hk : k < n) :
    S.Canonical (plainUnits params c file k) := by
  have hpl : params.unitPl = S.unitPl := hd.2.2.2.1.symm
  have hcc : c = S.c := hd.2.2.2.2.1.symm
  refine ⟨by rw [plainUnits_length]; exact hcc, fun u hu' => ⟨by rw [plainUnits_unit _ _ _ _ u hu']; exact hpl, ?_⟩⟩
  unfold plainUnits at hu'
  obtain ⟨j, hj, rfl⟩ := List.mem_map.mp hu'
  have hj := List.mem_range.mp hj
  rw [hd.2.2.1]
  apply hu
  calc k * c + j < (k + 1) * c := by rw [Nat.add_mul]; omega
    _ ≤ n * c := Nat.mul_le_mul_right _ hk

include hH cfg hL hS in
/-- Block `k` of a sealed file, as units. -/
theorem sealed_units {file iv : Bytes} (hlen : n * params.blockPl ≤ file.length)
    (hu : UnitsBelow params p n c file) {S : Sealing} (hd : describes S H params p n c iv) {st : SealState}
    (h : sealFile H params file (p : Int) iv = .ok st) {k : Nat} (hk : k < n) :
    plainUnits params c st.file k = S.sealOne (S.dependencies (S.sealedBlocks (plainUnits params c file) k) k)
        (S.chaining (S.sealedBlocks (plainUnits params c file) k) k) (plainUnits params c file k) := by
  obtain ⟨s, g1, g2, -⟩ := C64_seal_exact H hH params p n c cfg hL hS file iv hlen hu S hd
  rw [h] at g1
  cases g1
  have hupl : 0 < params.unitPl := by rw [cfg.unit_pl]; omega
  have hpl : params.unitPl = S.unitPl := hd.2.2.2.1.symm
  have hcan := canonical_plain hu hd hk
  have hl := sealedBlocks_last S (plainUnits params c file) hk
  rw [← hl]
  refine plainUnits_of_flatten cfg.layout hupl (fun u hu' => ?_) (g2 k hk)
  rw [hl] at hu'
  rw [(Sealing.sealOne_shape ⟨hcan.1, fun u hu => (hcan.2 u hu).1⟩).2 u hu', hpl]

end

/-- The first difference shows: if two files agree on the blocks before `q` and differ in block `q`, their
sealings agree on the blocks before `q` and differ in block `q`, provided no zero was encoded in that block of
either. -/
theorem C121_first_difference (H : Bytes → Bytes) (hH : ∀ x, (H x).length = 32) (params : PosPara)
    (p n c : Nat) (cfg : Config params p n c) (hL : LongModeOk params n) (hS : ShortModeOk params n c)
    (file file' iv : Bytes) (hlen : n * params.blockPl ≤ file.length)
    (hlen' : n * params.blockPl ≤ file'.length) (hu : UnitsBelow params p n c file)
    (hu' : UnitsBelow params p n c file') (S : Sealing) (hd : describes S H params p n c iv) (q : Nat) (hq : q < n)
    (heq : ∀ k < q, readFile file (k * params.blockPl) params.blockPl = readFile file' (k * params.blockPl) params.blockPl)
    (hne : readFile file (q * params.blockPl) params.blockPl ≠ readFile file' (q * params.blockPl) params.blockPl)
    (hz : BlockNoZero S (fun k => (List.range c).map
      (fun j => readFile file ((k * c + j) * params.unitPl) params.unitPl)) q)
    (hz' : BlockNoZero S (fun k => (List.range c).map
      (fun j => readFile file' ((k * c + j) * params.unitPl) params.unitPl)) q) :
    ∃ st st', sealFile H params file (p : Int) iv = .ok st ∧ sealFile H params file' (p : Int) iv = .ok st' ∧
      (∀ k < q, readFile st.file (k * params.blockPl) params.blockPl = readFile st'.file (k * params.blockPl) params.blockPl) ∧
      readFile st.file (q * params.blockPl) params.blockPl ≠ readFile st'.file (q * params.blockPl) params.blockPl := by
  obtain ⟨st, a1, a2, -, a4, -⟩ := C64_seal_exact H hH params p n c cfg hL hS file iv hlen hu S hd
  obtain ⟨st', b1, b2, -, b4, -⟩ := C64_seal_exact H hH params p n c cfg hL hS file' iv hlen' hu' S hd
  have hpl : ∀ k < q, plainUnits params c file k = plainUnits params c file' k := fun k hk =>
    plainUnits_congr cfg.layout (heq k hk)
  refine ⟨st, st', a1, b1, fun k hk => ?_, fun hblk => hne ?_⟩
  · rw [a2 k (by omega), b2 k (by omega), sealedBlocks_getD _ _ hk (by omega : q ≤ n),
      sealedBlocks_getD _ _ hk (by omega : q ≤ n)]
    exact congrArg (fun l => (l.getD k []).flatten) (sealedBlocks_congr S hpl)
  · have hb : plainUnits params c st.file q = plainUnits params c st'.file q := plainUnits_congr cfg.layout hblk
    rw [sealed_units hH cfg hL hS hlen hu hd a1 hq, sealed_units hH cfg hL hS hlen' hu' hd b1 hq,
      ← sealedBlocks_congr S hpl] at hb
    have hz : S.NoZeroEncoded (S.dependencies (S.sealedBlocks (plainUnits params c file) q) q)
      (S.chaining (S.sealedBlocks (plainUnits params c file) q) q) (plainUnits params c file q) := hz
    have hz' : S.NoZeroEncoded (S.dependencies (S.sealedBlocks (plainUnits params c file') q) q)
      (S.chaining (S.sealedBlocks (plainUnits params c file') q) q) (plainUnits params c file' q) := hz'
    rw [← sealedBlocks_congr S hpl] at hz'
    have hcan := canonical_plain hu hd hq
    have hcan' := canonical_plain hu' hd hq
    have hS' := describes_sealingOf hd
    have inv : Sealing.Inverse S ((undelay p)^[params.vdeRounds]) := by
      rw [hS']
      exact inverse_of hH cfg iv (longOf H params n) n
    have e := (Sealing.unsealOne_sealOne inv hcan hz).2
    rw [hb, (Sealing.unsealOne_sealOne inv hcan' hz').2] at e
    have h1 := plainUnits_flatten cfg.layout file q
    rw [← e, plainUnits_flatten cfg.layout file' q] at h1
    exact h1.symm

/-- Two padded files agree on a block exactly if the originals do. -/
theorem padded_block_iff {params : PosPara} {p n c : Nat} (cfg : Config params p n c) {origin origin' padded padded' : Bytes}
    (hlen : origin.length = params.dataL) (hlen' : origin'.length = params.dataL)
    (hpad : copyAndPad origin params.dataL params.unitL = .ok padded)
    (hpad' : copyAndPad origin' params.dataL params.unitL = .ok padded') {k : Nat} (hk : k < n) :
    readFile padded (k * params.blockPl) params.blockPl = readFile padded' (k * params.blockPl) params.blockPl ↔
      readFile origin (k * params.blockL) params.blockL = readFile origin' (k * params.blockL) params.blockL := by
  have hd : params.dataL = (n * c) * params.unitL := by rw [cfg.data, cfg.block, Nat.mul_assoc]
  obtain ⟨pd, e1, -, e3, -⟩ := C15_pad_compress origin params.unitL (n * c) cfg.unit_pos (by omega)
  obtain ⟨pd', f1, -, f3, -⟩ := C15_pad_compress origin' params.unitL (n * c) cfg.unit_pos (by omega)
  rw [← hd, hpad] at e1
  cases e1
  rw [← hd, hpad'] at f1
  cases f1
  rw [cfg.block_pl, cfg.block, readFile_units_iff, readFile_units_iff]
  have hu : ∀ j < c, k * c + j < n * c := fun j hj => by
    calc k * c + j < (k + 1) * c := by rw [Nat.add_mul]; omega
      _ ≤ n * c := Nat.mul_le_mul_right _ hk
  have h1 : ∀ (u j : Nat), k * (c * u) + j * u = (k * c + j) * u := fun u j => by
    rw [Nat.add_mul, Nat.mul_assoc]
  constructor
  · intro h j hj
    have := h j hj
    rw [h1, cfg.unit_pl, e3 _ (hu j hj), f3 _ (hu j hj)] at this
    rw [h1]
    exact List.append_cancel_right this
  · intro h j hj
    have := h j hj
    rw [h1] at this
    rw [h1, cfg.unit_pl, e3 _ (hu j hj), f3 _ (hu j hj), this]

theorem eq_of_blocks {a b : Bytes} {n l : Nat} (ha : a.length = n * l) (hb : b.length = n * l)
    (h : ∀ k < n, readFile a (k * l) l = readFile b (k * l) l) : a = b := by
  have h0 : readFile a 0 (n * l) = readFile b 0 (n * l) := by
    rw [readFile_units_iff]
    intro k hk
    rw [Nat.zero_add]
    exact h k hk
  rw [readFile_eq_take_drop _ _ _ (by omega), readFile_eq_take_drop _ _ _ (by omega), List.drop_zero, List.drop_zero,
    ← ha, List.take_length, ha, ← hb, List.take_length] at h0
  exact h0

theorem noZero_of_log {H : Bytes → Bytes} (hH : ∀ x, (H x).length = 32) {params : PosPara}
    {p n c : Nat} (cfg : Config params p n c) (hL : LongModeOk params n) (hS : ShortModeOk params n c)
    {file iv : Bytes} (hlen : n * params.blockPl ≤ file.length) (hu : UnitsBelow params p n c file) {S : Sealing}
    (hd : describes S H params p n c iv) {st : SealState} (h : sealFile H params file (p : Int) iv = .ok st)
    (hlog : ∀ v ∈ st.log, v ≠ 0) {q : Nat} (hq : q < n) :
    BlockNoZero S (fun k => (List.range c).map
      (fun j => readFile file ((k * c + j) * params.unitPl) params.unitPl)) q := by
  obtain ⟨s, a1, a2, -⟩ := C85_encodings H hH params p n c cfg hL hS file iv hlen hu S hd
  rw [h] at a1
  cases a1
  intro v hv
  apply hlog
  rw [a2]
  exact List.mem_flatMap.mpr ⟨q, List.mem_range.mpr hq, hv⟩

/-- Two different originals, sealed with the same key, initial vector and parameters and without a zero being
encoded: the first block in which the originals differ is the first in which the sealed files differ, and the
identifiers of that block are equal only if these two different blocks have the same hash. -/
theorem C121_identifiers (H : Bytes → Bytes) (hH : ∀ x, (H x).length = 32) (params : PosPara)
    (p n c : Nat) (cfg : Config params p n c) (hL : LongModeOk params n) (hS : ShortModeOk params n c)
    (origin origin' padded padded' iv : Bytes)
    (hlen : origin.length = params.dataL) (hlen' : origin'.length = params.dataL)
    (hpad : copyAndPad origin params.dataL params.unitL = .ok padded)
    (hpad' : copyAndPad origin' params.dataL params.unitL = .ok padded') (st st' : SealState)
    (h : sealFile H params padded (p : Int) iv = .ok st) (h' : sealFile H params padded' (p : Int) iv = .ok st')
    (hlog : ∀ v ∈ st.log, v ≠ 0) (hlog' : ∀ v ∈ st'.log, v ≠ 0) (hne : origin ≠ origin') :
    ∃ q < n,
      (∀ k < q, readFile origin (k * params.blockL) params.blockL = readFile origin' (k * params.blockL) params.blockL) ∧
      readFile origin (q * params.blockL) params.blockL ≠ readFile origin' (q * params.blockL) params.blockL ∧
      (∀ k < q, readFile st.file (k * params.blockPl) params.blockPl = readFile st'.file (k * params.blockPl) params.blockPl ∧
        st.ids[k]? = st'.ids[k]?) ∧
      readFile st.file (q * params.blockPl) params.blockPl ≠ readFile st'.file (q * params.blockPl) params.blockPl ∧
      (st.ids[q]? = st'.ids[q]? ↔ H (readFile st.file (q * params.blockPl) params.blockPl) =
        H (readFile st'.file (q * params.blockPl) params.blockPl)) := by
  have hex : ∃ q, q < n ∧ readFile origin (q * params.blockL) params.blockL ≠
      readFile origin' (q * params.blockL) params.blockL := by
    by_contra hno
    push Not at hno
    exact hne (eq_of_blocks (n := n) (l := params.blockL) (by rw [hlen, cfg.data]) (by rw [hlen', cfg.data]) hno)
  classical
  obtain ⟨hq, hqne⟩ := Nat.find_spec hex
  have hmin : ∀ k < Nat.find hex, readFile origin (k * params.blockL) params.blockL =
      readFile origin' (k * params.blockL) params.blockL := fun k hk => by
    have := Nat.find_min hex hk
    push Not at this
    exact this (by omega)
  generalize Nat.find hex = q at hq hqne hmin
  have hd : describes (sealingOf H params p c iv (longOf H params n) (shortOf H params n c)) H params p n c iv :=
    ⟨rfl, rfl, rfl, rfl, rfl, rfl, rfl, rfl, rfl⟩
  obtain ⟨pd, g1, g2, g3, -⟩ := padded_unitsBelow cfg hlen
  rw [hpad] at g1
  cases g1
  obtain ⟨pd', g1', g2', g3', -⟩ := padded_unitsBelow cfg hlen'
  rw [hpad'] at g1'
  cases g1'
  obtain ⟨s, s', e1, e1', e2, e3⟩ := C121_first_difference H hH params p n c cfg hL hS padded padded' iv (by omega) (by omega)
    g3 g3' _ hd q hq (fun k hk => (padded_block_iff cfg hlen hlen' hpad hpad' (by omega)).mpr (hmin k hk))
    (fun e => hqne ((padded_block_iff cfg hlen hlen' hpad hpad' hq).mp e))
    (noZero_of_log hH cfg hL hS (by omega) g3 hd h hlog hq) (noZero_of_log hH cfg hL hS (by omega) g3' hd h' hlog' hq)
  rw [h] at e1
  cases e1
  rw [h'] at e1'
  cases e1'
  obtain ⟨s, a1, -, a3, -⟩ := C64_seal_exact H hH params p n c cfg hL hS padded iv (by omega) g3 _ hd
  obtain ⟨s', b1, -, b3, -⟩ := C64_seal_exact H hH params p n c cfg hL hS padded' iv (by omega) g3' _ hd
  rw [h] at a1
  cases a1
  rw [h'] at b1
  cases b1
  refine ⟨q, hq, hmin, hqne, fun k hk => ⟨e2 k hk, ?_⟩, e3, ?_⟩
  · rw [a3, b3, List.getElem?_map, List.getElem?_map, List.getElem?_range (by omega : k < n)]
    simp only [Option.map_some]
    rw [e2 k hk]
  · rw [a3, b3, List.getElem?_map, List.getElem?_map, List.getElem?_range hq]
    simp only [Option.map_some, Option.some.injEq]

/-- So equal lists of identifiers mean equal originals, unless two different sealed blocks at the same
position have the same hash. -/
theorem C121_same_identifiers (H : Bytes → Bytes) (hH : ∀ x, (H x).length = 32) (params : PosPara)
    (p n c : Nat) (cfg : Config params p n c) (hL : LongModeOk params n) (hS : ShortModeOk params n c)
    (origin origin' padded padded' iv : Bytes)
    (hlen : origin.length = params.dataL) (hlen' : origin'.length = params.dataL)
    (hpad : copyAndPad origin params.dataL params.unitL = .ok padded)
    (hpad' : copyAndPad origin' params.dataL params.unitL = .ok padded') (st st' : SealState)
    (h : sealFile H params padded (p : Int) iv = .ok st) (h' : sealFile H params padded' (p : Int) iv = .ok st')
    (hlog : ∀ v ∈ st.log, v ≠ 0) (hlog' : ∀ v ∈ st'.log, v ≠ 0) (hids : st.ids = st'.ids) :
    origin = origin' ∨ ∃ q < n,
      readFile st.file (q * params.blockPl) params.blockPl ≠ readFile st'.file (q * params.blockPl) params.blockPl ∧
      H (readFile st.file (q * params.blockPl) params.blockPl) = H (readFile st'.file (q * params.blockPl) params.blockPl) := by
  by_cases hne : origin = origin'
  · exact Or.inl hne
  · obtain ⟨q, hq, -, -, -, e, f⟩ := C121_identifiers H hH params p n c cfg hL hS origin origin' padded padded' iv hlen hlen'
      hpad hpad' st st' h h' hlog hlog' hne
    exact Or.inr ⟨q, hq, e, f.mp (by rw [hids])⟩

/-- Equal roots of two lists of the same length. -/
theorem data_roots (Hs : Bytes → Bytes) (hHs : ∀ x, (Hs x).length = 32) {ids ids' : List Bytes}
    (hl : ids.length = ids'.length) {leaves leaves' : List Bytes} {t t' : MerkleTree} {root : Bytes}
    (h : generateMerkleTreeFromData Hs ids = .ok (leaves, t, root))
    (h' : generateMerkleTreeFromData Hs ids' = .ok (leaves', t', root)) :
    Collides Hs (innerStrings t.layers) (innerStrings t'.layers) ∨ ids.map Hs = ids'.map Hs := by
  have key : ∀ (ids leaves : List Bytes) (t : MerkleTree), generateMerkleTreeFromData Hs ids = .ok (leaves, t, root) →
      ids ≠ [] ∧ root = topValue Hs (treeDepth ids.length) ids.length (fun k => (ids.map Hs)[k]?.getD []) ∧
      t.layers = fullLayers Hs (treeDepth ids.length) ids.length (fun k => (ids.map Hs)[k]?.getD []) := by
    intro ids leaves t hg
    unfold generateMerkleTreeFromData at hg
    by_cases hne : ids = []
    · subst hne
      cases hg
    have hne' : ids.map Hs ≠ [] := fun e => hne (List.map_eq_nil_iff.mp e)
    simp only [] at hg
    split at hg
    · next root' hroot =>
      have hg := Except.ok.inj hg
      simp only [Prod.mk.injEq] at hg
      obtain ⟨-, e2, e3⟩ := hg
      rw [(merkleFromLeaves_eq Hs hne').2, e3] at hroot
      refine ⟨hne, by simpa using (Option.some.inj hroot).symm, ?_⟩
      rw [← e2, (merkleFromLeaves_eq Hs hne').1]
      simp
    · cases hg
  obtain ⟨k1, k2, k3⟩ := key ids leaves t h
  obtain ⟨-, k2', k3'⟩ := key ids' leaves' t' h'
  rw [k3, k3']
  rw [← hl] at k2' ⊢
  have hpos : 0 < ids.length := List.length_pos_iff.mpr k1
  have h32 : ∀ (l : List Bytes) k, k < l.length → ((l.map Hs)[k]?.getD []).length = 32 := fun l k hk => by
    rw [List.getElem?_map, List.getElem?_eq_getElem hk]
    exact hHs _
  rcases topValue_inj Hs hHs _ _ _ _ (levels_treeDepth hpos) (h32 ids) (fun k hk => h32 ids' k (by omega))
    (k2.symm.trans k2') with hc | heq
  · exact Or.inl hc
  · refine Or.inr (List.ext_getElem (by simp [hl]) fun k hk hk' => ?_)
    have := heq k (by simpa using hk)
    rw [List.getElem?_eq_getElem hk, List.getElem?_eq_getElem hk'] at this
    exact this

/-- The published root: equal roots mean equal originals, unless two different strings hashed for the two
trees have the same hash, two different identifiers of the same block, or two different sealed blocks at the
same position. -/
theorem C121_root (H Hs : Bytes → Bytes) (hH : ∀ x, (H x).length = 32) (hHs : ∀ x, (Hs x).length = 32) (params : PosPara)
    (p n c : Nat) (cfg : Config params p n c) (hL : LongModeOk params n) (hS : ShortModeOk params n c)
    (origin origin' padded padded' iv : Bytes)
    (hlen : origin.length = params.dataL) (hlen' : origin'.length = params.dataL)
    (hpad : copyAndPad origin params.dataL params.unitL = .ok padded)
    (hpad' : copyAndPad origin' params.dataL params.unitL = .ok padded') (st st' : SealState)
    (h : sealFile H params padded (p : Int) iv = .ok st) (h' : sealFile H params padded' (p : Int) iv = .ok st')
    (hlog : ∀ v ∈ st.log, v ≠ 0) (hlog' : ∀ v ∈ st'.log, v ≠ 0)
    (leaves leaves' : List Bytes) (tree tree' : MerkleTree) (root : Bytes)
    (hm : generateMerkleTreeFromData Hs st.ids = .ok (leaves, tree, root))
    (hm' : generateMerkleTreeFromData Hs st'.ids = .ok (leaves', tree', root)) :
    origin = origin' ∨ Collides Hs (innerStrings tree.layers) (innerStrings tree'.layers) ∨
      (∃ q < n, ∃ id id', st.ids[q]? = some id ∧ st'.ids[q]? = some id' ∧ id ≠ id' ∧ Hs id = Hs id') ∨
      ∃ q < n,
        readFile st.file (q * params.blockPl) params.blockPl ≠ readFile st'.file (q * params.blockPl) params.blockPl ∧
        H (readFile st.file (q * params.blockPl) params.blockPl) =
          H (readFile st'.file (q * params.blockPl) params.blockPl) := by
  have hd : describes (sealingOf H params p c iv (longOf H params n) (shortOf H params n c)) H params p n c iv :=
    ⟨rfl, rfl, rfl, rfl, rfl, rfl, rfl, rfl, rfl⟩
  obtain ⟨pd, g1, g2, g3, -⟩ := padded_unitsBelow cfg hlen
  rw [hpad] at g1
  cases g1
  obtain ⟨pd', g1', g2', g3', -⟩ := padded_unitsBelow cfg hlen'
  rw [hpad'] at g1'
  cases g1'
  obtain ⟨s, a1, -, a3, -⟩ := C64_seal_exact H hH params p n c cfg hL hS padded iv (by omega) g3 _ hd
  obtain ⟨s', b1, -, b3, -⟩ := C64_seal_exact H hH params p n c cfg hL hS padded' iv (by omega) g3' _ hd
  rw [h] at a1
  cases a1
  rw [h'] at b1
  cases b1
  have l1 : st.ids.length = n := by rw [a3]; simp
  have l2 : st'.ids.length = n := by rw [b3]; simp
  rcases data_roots Hs hHs (by omega) hm hm' with hc | hmap
  · exact Or.inr (Or.inl hc)
  by_cases hids : st.ids = st'.ids
  · rcases C121_same_identifiers H hH params p n c cfg hL hS origin origin' padded padded' iv hlen hlen' hpad hpad' st st' h h'
      hlog hlog' hids with e | e
    · exact Or.inl e
    · exact Or.inr (Or.inr (Or.inr e))
  · refine Or.inr (Or.inr (Or.inl ?_))
    by_contra hno
    apply hids
    apply List.ext_getElem (by omega)
    intro k hk hk'
    by_contra hk2
    refine hno ⟨k, by omega, _, _, List.getElem?_eq_getElem hk, List.getElem?_eq_getElem hk', hk2, ?_⟩
    have := congrArg (fun l => l[k]?) hmap
    simpa [List.getElem?_map, List.getElem?_eq_getElem hk, List.getElem?_eq_getElem hk'] using this

/-- With a single sealing round, a hash that never returns 32 zero bytes and a modulus as large as the shipped
ones, no zero is ever encoded while a padded file is sealed. -/
theorem one_round_log {H : Bytes → Bytes} (hH : ∀ x, (H x).length = 32) (hz : ∀ x, H x ≠ zeros 32) {params : PosPara}
    {p n c : Nat} (cfg : Config params p n c) (hp : 256 ^ params.unitL + 256 ^ 32 ≤ p) (hr : params.sealRounds = 1)
    (hL : LongModeOk params n) (hS : ShortModeOk params n c)
    {origin iv padded : Bytes} (hlen : origin.length = params.dataL)
    (hpad : copyAndPad origin params.dataL params.unitL = .ok padded) {st : SealState}
    (h : sealFile H params padded (p : Int) iv = .ok st) : ∀ v ∈ st.log, v ≠ 0 := by
  have hd : describes (sealingOf H params p c iv (longOf H params n) (shortOf H params n c)) H params p n c iv :=
    ⟨rfl, rfl, rfl, rfl, rfl, rfl, rfl, rfl, rfl⟩
  obtain ⟨pd, g1, g2, g3, -⟩ := padded_unitsBelow cfg hlen
  rw [hpad] at g1
  cases g1
  obtain ⟨s, a1, a2, -⟩ := C85_encodings H hH params p n c cfg hL hS padded iv (by omega) g3 _ hd
  rw [h] at a1
  cases a1
  rw [a2]
  intro v hv
  obtain ⟨k, hk, hv'⟩ := List.mem_flatMap.mp hv
  have hk := List.mem_range.mp hk
  clear hv
  revert v
  show Sealing.NoZeroEncoded _ _ _ _
  rw [Sealing.noZeroEncoded_iff]
  generalize Sealing.dependencies _ _ k = deps
  generalize Sealing.chaining _ _ k = chain
  intro r hr' j hj
  have hr0 : r = 0 := by
    have : r < params.sealRounds := hr'
    omega
  subst hr0
  rw [C86_first_round H hH params p n c cfg hp origin iv padded hlen hpad _ hd deps chain k j hk hj]
  intro h0
  have h0 := (Nat.add_eq_zero_iff.mp h0).2
  apply hz
  rw [eq_leBytes (hH _) h0]
  decide +kernel

/-- Without any condition on the runs: with a single sealing round the identifiers of two different originals
differ, unless two different sealed blocks at the same position have the same hash. -/
theorem C121_one_round (H : Bytes → Bytes) (hH : ∀ x, (H x).length = 32) (hz : ∀ x, H x ≠ zeros 32) (params : PosPara)
    (p n c : Nat) (cfg : Config params p n c) (hp : 256 ^ params.unitL + 256 ^ 32 ≤ p) (hr : params.sealRounds = 1)
    (hL : LongModeOk params n) (hS : ShortModeOk params n c) (origin origin' iv : Bytes)
    (hlen : origin.length = params.dataL) (hlen' : origin'.length = params.dataL) (hne : origin ≠ origin') :
    ∃ padded padded' st st', copyAndPad origin params.dataL params.unitL = .ok padded ∧
      copyAndPad origin' params.dataL params.unitL = .ok padded' ∧
      sealFile H params padded (p : Int) iv = .ok st ∧ sealFile H params padded' (p : Int) iv = .ok st' ∧
      st.file ≠ st'.file ∧
      (st.ids = st'.ids → ∃ q < n,
        readFile st.file (q * params.blockPl) params.blockPl ≠ readFile st'.file (q * params.blockPl) params.blockPl ∧
        H (readFile st.file (q * params.blockPl) params.blockPl) =
          H (readFile st'.file (q * params.blockPl) params.blockPl)) := by
  have hd : describes (sealingOf H params p c iv (longOf H params n) (shortOf H params n c)) H params p n c iv :=
    ⟨rfl, rfl, rfl, rfl, rfl, rfl, rfl, rfl, rfl⟩
  obtain ⟨pd, g1, g2, g3, -⟩ := padded_unitsBelow cfg hlen
  obtain ⟨pd', g1', g2', g3', -⟩ := padded_unitsBelow cfg hlen'
  obtain ⟨s, a1, -⟩ := C64_seal_exact H hH params p n c cfg hL hS pd iv (by omega) g3 _ hd
  obtain ⟨s', b1, -⟩ := C64_seal_exact H hH params p n c cfg hL hS pd' iv (by omega) g3' _ hd
  have hlog := one_round_log hH hz cfg hp hr hL hS hlen g1 a1
  have hlog' := one_round_log hH hz cfg hp hr hL hS hlen' g1' b1
  refine ⟨pd, pd', s, s', g1, g1', a1, b1, fun e => ?_, fun e => ?_⟩
  · obtain ⟨q, -, -, -, -, e', -⟩ := C121_identifiers H hH params p n c cfg hL hS origin origin' pd pd' iv hlen hlen'
      g1 g1' s s' a1 b1 hlog hlog' hne
    exact e' (by rw [e])
  · rcases C121_same_identifiers H hH params p n c cfg hL hS origin origin' pd pd' iv hlen hlen' g1 g1' s s' a1 b1
      hlog hlog' e with e | e
    · exact absurd e hne
    · exact e

theorem encode_zero_pos {p : Nat} (hp : p.Prime) (h34 : p % 4 = 3) (h3 : 5 ≤ p) {t : Nat} (ht : 0 < t) :
    0 < encode p t 0 := by
  unfold encode
  rw [if_pos rfl, if_neg (by omega)]
  split
  · omega
  · exact (sloth_iterate hp h34 (x := 2) (by norm_num) (by omega) (t - 2)).2.1

/-- Where a zero is encoded nothing is bound: if the first unit of a block is zero after masking in the first
round, another file of residues, different in this unit only, has the same sealing and the same identifiers. -/
theorem C121_zero_not_bound (H : Bytes → Bytes) (hH : ∀ x, (H x).length = 32) (params : PosPara)
    (p n c : Nat) (cfg : Config params p n c) (hL : LongModeOk params n) (hS : ShortModeOk params n c)
    (hr : 0 < params.sealRounds) (ht : 0 < params.vdeRounds)
    (file iv : Bytes) (hlen : n * params.blockPl ≤ file.length) (hu : UnitsBelow params p n c file)
    (S : Sealing) (hd : describes S H params p n c iv) (plain : Nat → List Bytes)
    (hplain : plain = fun k => (List.range c).map
      (fun j => readFile file ((k * c + j) * params.unitPl) params.unitPl)) (k : Nat) (hk : k < n)
    (hzero : S.encoderInput (S.dependencies (S.sealedBlocks plain k) k) (S.chaining (S.sealedBlocks plain k) k) (plain k) 0 = 0) :
    ∃ file' st st', file' ≠ file ∧ file'.length = file.length ∧ UnitsBelow params p n c file' ∧
      (∀ i, i < k * params.blockPl ∨ k * params.blockPl + params.unitPl ≤ i → file'[i]? = file[i]?) ∧
      sealFile H params file (p : Int) iv = .ok st ∧ sealFile H params file' (p : Int) iv = .ok st' ∧
      st'.file = st.file ∧ st'.ids = st.ids := by
  have hplain : plain = plainUnits params c file := hplain
  subst hplain
  have hupl : 0 < params.unitPl := by rw [cfg.unit_pl]; omega
  have hp5 : 5 ≤ p := le_trans (by norm_num) cfg.above_hash
  have hS' := describes_sealingOf hd
  have inv : Sealing.Inverse S ((undelay p)^[params.vdeRounds]) := by
    rw [hS']
    exact inverse_of hH cfg iv (longOf H params n) n
  obtain ⟨d1, d2, d3, d4, d5, d6, d7, d8, d9⟩ := id hd
  set deps := S.dependencies (S.sealedBlocks (plainUnits params c file) k) k with hdeps
  set chain := S.chaining (S.sealedBlocks (plainUnits params c file) k) k with hchain
  set b := plainUnits params c file k with hb
  set m := leNat (S.H (S.maskInput deps chain b 0)) with hm
  -- the value that is encoded like zero
  obtain ⟨v0, v1, v2⟩ := undelay_encode_zero cfg.prime cfg.mod4 hp5 ht
  set v := (undelay p)^[params.vdeRounds] (encode p params.vdeRounds 0) with hv
  have henc : S.enc v = S.enc 0 := by
    rw [d2]
    have := inv.enc_dec (encode p params.vdeRounds 0) (encode_zero_pos cfg.prime cfg.mod4 hp5 ht) (by rw [d3]; exact v2)
    rw [d2] at this
    exact this
  -- the other unit
  set w := (leNat (b.getD 0 []) + v) % p with hw
  have hwp : w < p := Nat.mod_lt _ (by omega)
  have hwv : (w + m) % p = v := by
    have h0 : (leNat (b.getD 0 []) + m) % p = 0 := by
      rw [← d3]
      exact hzero
    rw [hw, Nat.mod_add_mod, show leNat (b.getD 0 []) + v + m = (leNat (b.getD 0 []) + m) + v by omega, Nat.add_mod, h0,
      Nat.zero_add, Nat.mod_mod, Nat.mod_eq_of_lt v1]
  have hw256 : w < 256 ^ params.unitPl := lt_of_lt_of_le hwp cfg.fits
  set file' := writeAt file (k * params.blockPl) (leBytes params.unitPl w) with hfile'
  have hkb : k * params.blockPl + params.blockPl ≤ file.length := by
    have : (k + 1) * params.blockPl ≤ n * params.blockPl := Nat.mul_le_mul_right _ hk
    rw [Nat.add_mul, Nat.one_mul] at this
    omega
  have hub : params.unitPl ≤ params.blockPl := by
    rw [cfg.block_pl]; exact Nat.le_mul_of_pos_left _ cfg.c_pos
  have hlw : (leBytes params.unitPl w).length = params.unitPl := leBytes_length _ _
  have hlen' : file'.length = file.length := by
    rw [hfile', writeAt_length _ _ _ (by rw [hlw]; omega)]
  have hself : readFile file' (k * params.blockPl) params.unitPl = leBytes params.unitPl w := by
    have := readFile_writeAt_same file (leBytes params.unitPl w) (k * params.blockPl) (by omega)
    rwa [hlw] at this
  have hother : ∀ i, i ≠ k * c → readFile file' (i * params.unitPl) params.unitPl = readFile file (i * params.unitPl) params.unitPl := by
    intro i hi
    apply readFile_writeAt_disjoint _ _ _ _ _ (by omega)
    rw [hlw, cfg.block_pl, ← Nat.mul_assoc]
    rcases Nat.lt_or_gt_of_ne hi with h | h
    · left
      calc i * params.unitPl + params.unitPl = (i + 1) * params.unitPl := by rw [Nat.add_mul, Nat.one_mul]
        _ ≤ k * c * params.unitPl := Nat.mul_le_mul_right _ h
    · right
      calc k * c * params.unitPl + params.unitPl = (k * c + 1) * params.unitPl := by rw [Nat.add_mul, Nat.one_mul]
        _ ≤ i * params.unitPl := Nat.mul_le_mul_right _ h
  have hkc : k * params.blockPl = k * c * params.unitPl := by rw [cfg.block_pl, Nat.mul_assoc]
  have hu' : UnitsBelow params p n c file' := by
    intro i hi
    by_cases hik : i = k * c
    · subst hik
      rw [← hkc, hself, leNat_leBytes hw256]
      exact hwp
    · rw [hother i hik]
      exact hu i hi
  have hpl : ∀ i, i ≠ k → plainUnits params c file' i = plainUnits params c file i := by
    intro i hi
    apply List.map_congr_left
    intro j hj
    have hj := List.mem_range.mp hj
    apply hother
    intro e
    have h1 : (i * c + j) / c = k * c / c := congrArg (· / c) e
    rw [Nat.mul_comm i c, Nat.mul_add_div cfg.c_pos, Nat.div_eq_of_lt hj, Nat.mul_div_cancel _ cfg.c_pos] at h1
    omega
  have hb0 : b.getD 0 [] = readFile file (k * params.blockPl) params.unitPl := by
    rw [hb, hkc]
    unfold plainUnits
    rw [List.getD_eq_getElem?_getD, List.getElem?_map, List.getElem?_range cfg.c_pos]
    simp
  have hplk : plainUnits params c file' k = b.set 0 (leBytes params.unitPl w) := by
    apply List.ext_getElem?
    intro j
    rw [List.getElem?_set, hb]
    unfold plainUnits
    by_cases hj : j < c
    · rw [List.getElem?_map, List.getElem?_range hj, List.getElem?_map, List.getElem?_range hj]
      by_cases hj0 : 0 = j
      · subst hj0
        rw [if_pos rfl, if_pos (by simpa using hj)]
        simp only [Option.map_some, Nat.add_zero]
        rw [← hkc, hself]
      · rw [if_neg hj0]
        simp only [Option.map_some]
        rw [hother _ (by omega)]
    · by_cases hj0 : 0 = j
      · have := cfg.c_pos
        omega
      · rw [if_neg hj0, List.getElem?_eq_none (by simpa using hj), List.getElem?_eq_none (by simpa using hj)]
  -- the sealed block is the same
  have hstep : S.stepUnit deps chain (b.set 0 (leBytes params.unitPl w)) 0 = S.stepUnit deps chain b 0 := by
    have hbl : 0 < b.length := by rw [hb, plainUnits_length]; exact cfg.c_pos
    have hmi : S.maskInput deps chain (b.set 0 (leBytes params.unitPl w)) 0 = S.maskInput deps chain b 0 :=
      Sealing.maskInput_set (fun seed => inv.other 0 (by rw [d5]; exact cfg.c_pos) seed)
    unfold Sealing.stepUnit
    rw [hmi, List.set_set, Sealing.getD_set_self _ _ _ _ hbl, leNat_leBytes hw256]
    have h1 : (w + leNat (S.H (S.maskInput deps chain b 0))) % S.p = v := by rw [d3]; exact hwv
    have h2 : (leNat (b.getD 0 []) + leNat (S.H (S.maskInput deps chain b 0))) % S.p = 0 := hzero
    rw [h1, h2, henc]
  have hone : S.sealOne deps chain (b.set 0 (leBytes params.unitPl w)) = S.sealOne deps chain b := by
    unfold Sealing.sealOne
    obtain ⟨r, hr1⟩ : ∃ r, S.rounds = r + 1 := ⟨S.rounds - 1, by rw [d6]; omega⟩
    obtain ⟨c', hc1⟩ : ∃ c', S.c = c' + 1 := ⟨S.c - 1, by have := cfg.c_pos; omega⟩
    rw [hr1, Function.iterate_succ_apply, Function.iterate_succ_apply, hc1, List.range_succ_eq_map]
    simp only [List.foldl_cons]
    rw [hstep]
  have hsb : ∀ i ≤ n, S.sealedBlocks (plainUnits params c file') i = S.sealedBlocks (plainUnits params c file) i := by
    intro i hi
    induction i with
    | zero => rfl
    | succ i ih =>
      have ih := ih (by omega)
      show S.sealedBlocks _ i ++ [_] = S.sealedBlocks _ i ++ [_]
      rw [ih]
      by_cases hik : i = k
      · subst hik
        rw [hplk, hone]
      · rw [hpl i hik]
  obtain ⟨st, a1, a2, a3, a4, a5⟩ := C64_seal_exact H hH params p n c cfg hL hS file iv hlen hu S hd
  obtain ⟨st', b1, b2, b3, b4, b5⟩ := C64_seal_exact H hH params p n c cfg hL hS file' iv (by omega) hu' S hd
  have hblk : ∀ i < n, readFile st'.file (i * params.blockPl) params.blockPl = readFile st.file (i * params.blockPl) params.blockPl := by
    intro i hi
    rw [a2 i hi, b2 i hi]
    exact congrArg (fun l => (l.getD i []).flatten) (hsb n (Nat.le_refl n))
  have houtside : ∀ i, i < k * params.blockPl ∨ k * params.blockPl + params.unitPl ≤ i → file'[i]? = file[i]? := by
    intro i hi
    rw [hfile', writeAt_getElem? _ _ _ _ (by omega), hlw]
    by_cases h1 : i < k * params.blockPl
    · simp [h1]
    · have h2 : k * params.blockPl + params.unitPl ≤ i := by omega
      rw [if_neg (by omega)]
  refine ⟨file', st, st', ?_, hlen', hu', houtside, a1, b1, ?_, ?_⟩
  · intro e
    have h1 : leNat (b.getD 0 []) = w := by
      rw [hb0, ← e, hself, leNat_leBytes hw256]
    have h2 : (leNat (b.getD 0 []) + m) % p = 0 := by
      rw [← d3]
      exact hzero
    rw [h1, hwv] at h2
    exact v0 h2
  · apply List.ext_getElem?
    intro i
    by_cases hi : n * params.blockPl ≤ i
    · rw [a5 i hi, b5 i hi]
      apply houtside
      right
      have : (k + 1) * params.blockPl ≤ n * params.blockPl := Nat.mul_le_mul_right _ hk
      rw [Nat.add_mul, Nat.one_mul] at this
      omega
    · have hbp : 0 < params.blockPl := by omega
      have hq : i / params.blockPl < n := (Nat.div_lt_iff_lt_mul hbp).mpr (by omega)
      have h := congrArg (fun l => l[i % params.blockPl]?) (hblk _ hq)
      simp only [readFile_getElem?] at h
      have hmm := Nat.mod_lt i hbp
      rw [if_pos hmm, if_pos hmm, show i / params.blockPl * params.blockPl + i % params.blockPl = i by
        rw [Nat.mul_comm]; exact Nat.div_add_mod i _] at h
      have l1 : i < st.file.length := by omega
      have l2 : i < st'.file.length := by omega
      rw [List.getElem?_eq_getElem l1, List.getElem?_eq_getElem l2] at h ⊢
      simpa using h
  · rw [a3, b3]
    apply List.map_congr_left
    intro i hi
    rw [hblk i (List.mem_range.mp hi)]

/-- Two files that differ in the second of three blocks: identifiers of the first block agree, those of the
others and the roots do not, and no zero is encoded in either run. -/
example : (match sealFile toyHash (toyParams 3 1 0 0 1 1 2) (List.replicate 63 1 ++ [0] ++ List.replicate 63 2 ++ [0] ++ List.replicate 63 3 ++ [0]) P_512 [1, 2, 3],
      sealFile toyHash (toyParams 3 1 0 0 1 1 2) (List.replicate 63 1 ++ [0] ++ List.replicate 63 4 ++ [0] ++ List.replicate 63 3 ++ [0]) P_512 [1, 2, 3] with
    | .ok st, .ok st' => (match generateMerkleTreeFromData toyHash st.ids, generateMerkleTreeFromData toyHash st'.ids with
      | .ok (_, _, root), .ok (_, _, root') =>
        decide ((∀ v ∈ st.log, v ≠ 0) ∧ (∀ v ∈ st'.log, v ≠ 0) ∧ st.ids[0]? = st'.ids[0]? ∧ st.ids[1]? ≠ st'.ids[1]? ∧
          st.ids[2]? ≠ st'.ids[2]? ∧ root ≠ root')
      | _, _ => false)
    | _, _ => false) = true := by decide +kernel

/-- Two different originals with one sealing, where the hash returns zeros: the unit zero and the unit four. -/
example : (match copyAndPad (zeros 63 ++ List.replicate 63 2) 126 63, copyAndPad (4 :: zeros 62 ++ List.replicate 63 2) 126 63 with
    | .ok padded, .ok padded' =>
      (match sealFile (fun _ => zeros 32) (toyParams 2 1 0 0 1 1 1) padded P_512 [1, 2, 3],
        sealFile (fun _ => zeros 32) (toyParams 2 1 0 0 1 1 1) padded' P_512 [1, 2, 3] with
      | .ok st, .ok st' => decide (padded ≠ padded' ∧ st.file = st'.file ∧ st.ids = st'.ids)
      | _, _ => false)
    | _, _ => false) = true := by decide +kernel

/-- Meets the hypotheses: any two different files of 252 bytes. -/
example (origin origin' iv : Bytes) (h : origin.length = 252) (h' : origin'.length = 252) (hne : origin ≠ origin') :
    ∃ p : Nat, (p : Int) = P_512 ∧ ∃ padded padded' st st', copyAndPad origin 252 63 = .ok padded ∧
      copyAndPad origin' 252 63 = .ok padded' ∧
      sealFile (fun x => UInt8.ofNat (x.length % 255 + 1) :: zeros 31) (toyParams 2 2 0 0 1 1 1) padded (p : Int) iv = .ok st ∧
      sealFile (fun x => UInt8.ofNat (x.length % 255 + 1) :: zeros 31) (toyParams 2 2 0 0 1 1 1) padded' (p : Int) iv = .ok st' ∧
      st.file ≠ st'.file := by
  obtain ⟨p, hp, cfg⟩ := toy_config 2 2 0 0 1 1 1 (by norm_num)
  obtain ⟨a, b, st, st', e1, e2, e3, e4, e5, -⟩ := C121_one_round (fun x => UInt8.ofNat (x.length % 255 + 1) :: zeros 31)
    (fun x => by show (zeros 31).length + 1 = 32; rw [zeros_length]) (fun x e => by
      have e : UInt8.ofNat (x.length % 255 + 1) = 0 := (List.cons.inj e).1
      have := congrArg UInt8.toNat e
      simp at this
      omega) (toyParams 2 2 0 0 1 1 1) p 2 2 cfg (by
      have : p = P_512.toNat := by rw [← hp]; rfl
      rw [this]
      show 256 ^ 63 + 256 ^ 32 ≤ _
      decide +kernel) rfl
    (hashModes_ok (n := 2) (c := 2) rfl rfl (by omega) (by omega)).1
    (hashModes_ok (n := 2) (c := 2) rfl rfl (by omega) (by omega)).2 origin origin' iv h h' hne
  exact ⟨p, hp, a, b, st, st', e1, e2, e3, e4, e5⟩

end PoS
