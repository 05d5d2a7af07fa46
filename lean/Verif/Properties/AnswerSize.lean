import Verif.Properties.Detection
import Verif.Proofs.Merkle

/-
C106: how large the answer to a challenge is.
-/

namespace PoS

set_option linter.unusedSectionVars false

/-! ### the Merkle proof -/

theorem length_dedupAdj_le (l : List Nat) : (dedupAdj l).length ≤ l.length := by
  induction l with
  | nil => simp [dedupAdj]
  | cons x l ih =>
    cases l with
    | nil => simp [dedupAdj]
    | cons y l =>
      unfold dedupAdj
      split
      · simp only [List.length_cons] at ih ⊢; omega
      · simp only [List.length_cons] at ih ⊢; omega

theorem length_parentIndices_le (ks : List Nat) : (parentIndices ks).length ≤ ks.length := by
  unfold parentIndices
  have := length_dedupAdj_le (ks.map (· / 2))
  simpa using this

/-- One sibling at most per index and layer, none in the topmost. -/
theorem helperNodes_length (H : Bytes → Bytes) (d m : Nat) (t : Nat → Bytes) (ks : List Nat) (h : Idx m ks)
    (hlev : Levels d m) : (helperNodes (fullLayers H d m t) ks).flatten.length ≤ ks.length * d := by
  induction d generalizing m t ks with
  | zero =>
    have hm : m = 1 := hlev
    subst hm
    unfold fullLayers helperNodes helperNodes
    rw [filterMap_helpers h]
    have hz : helperIndices 1 ks = [] := by
      rw [helperIndices_eq h]
      rw [List.filter_eq_nil_iff]
      intro x hx
      unfold difference at hx
      rw [List.mem_filter] at hx
      obtain ⟨hx1, hx2⟩ := hx
      obtain ⟨k, hk, rfl⟩ := List.mem_map.mp hx1
      have := h.lt k hk
      have hk0 : k = 0 := by omega
      subst hk0
      simp [siblingIndex]
    rw [hz]
    simp [nodesOf]
  | succ d ih =>
    have := ih ((m + 1) / 2) (up H m t) (parentIndices ks) h.parents hlev
    unfold fullLayers helperNodes
    rw [List.flatten_cons, List.length_append]
    have h1 : ((difference (ks.map siblingIndex) ks).filterMap
        (fun i => (nodesOf t (List.range m))[i]?)).length ≤ ks.length := by
      refine (List.length_filterMap_le _ _).trans ?_
      unfold difference
      refine (List.length_filter_le _ _).trans ?_
      simp
    have h2 : (parentIndices ks).length * d ≤ ks.length * d := Nat.mul_le_mul_right _ (length_parentIndices_le ks)
    rw [Nat.mul_succ]
    omega

/-- The proof for `q` leaves has at most `q` hashes of 32 bytes per layer below the root. -/
theorem C106_merkle (H : Bytes → Bytes) (hH : ∀ x, (H x).length = 32) (values leaves : List Bytes)
    (tree : MerkleTree) (root : Bytes) (hm : generateMerkleTreeFromData H values = .ok (leaves, tree, root))
    (indices : List Nat) (hs : indices.Pairwise (· < ·)) (hne : indices ≠ [])
    (hlt : ∀ k ∈ indices, k < values.length) :
    ∃ proof, generateMerkleProof indices tree = .ok proof ∧ (∀ h ∈ proof, h.length = 32) ∧
      proof.length ≤ indices.length * treeDepth values.length := by
  have hv : values ≠ [] := by
    rintro rfl
    cases indices with
    | nil => exact hne rfl
    | cons a l => have := hlt a (by simp); simp at this
  have hl : values.map H ≠ [] := by simpa using hv
  obtain ⟨h1, h2⟩ := merkleFromLeaves_eq H hl
  unfold generateMerkleTreeFromData at hm
  simp only [] at hm
  rw [h2] at hm
  injection hm with hm
  injection hm with hm1 hm2
  injection hm2 with hm2 hm3
  subst hm1 hm2
  have hlen : (values.map H).length = values.length := by simp
  have ht : ∀ k < (values.map H).length, ((fun k => (values.map H)[k]?.getD []) k).length = 32 := by
    intro k hk
    simp only [List.getElem?_eq_getElem hk, Option.getD_some, List.getElem_map]
    exact hH _
  have hall : ∀ x ∈ (merkleFromLeaves H (values.map H)).proof indices, x.length = 32 := by
    intro x hx
    unfold MerkleTree.proof at hx
    obtain ⟨y, hy, rfl⟩ := List.mem_map.mp hx
    obtain ⟨layer, hlay, hyl⟩ := helperNodes_mem _ _ y hy
    rw [h1] at hlay
    exact fullLayers_length H hH _ _ _ ht layer hlay y hyl
  refine ⟨(merkleFromLeaves H (values.map H)).proof indices, ?_, hall, ?_⟩
  · unfold generateMerkleProof
    rw [proof_roundtrip _ hall]
  · unfold MerkleTree.proof
    rw [List.length_map, h1, hlen]
    exact helperNodes_length H _ _ _ _ ⟨hs, hlt⟩
      (levels_treeDepth (List.length_pos_of_ne_nil hv))

/-- Five leaves, three layers below the root: the proof for leaves 0 and 3 has three hashes. -/
example : (match generateMerkleTreeFromData toyHash [[1], [2], [3], [4], [5]] with
    | .ok (_, tree, _) => (match generateMerkleProof [0, 3] tree with
      | .ok proof => decide (proof.length = 3 ∧ treeDepth 5 = 3)
      | .error _ => false)
    | .error _ => false) = true := by decide +kernel

/-! ### the whole answer -/

/-- How many dependency blocks go with block `k` at most: none that does not precede it, and not
more than requested (one per ten blocks, rounded up, if none is configured). -/
def mostDepends (cntL k : Nat) : Nat := min k (if cntL = 0 then k / 10 + 1 else cntL)

theorem hashLong_length (H : Bytes → Bytes) (n cntL : Nat) (id : Bytes) (k : Nat) :
    (hashLong H n cntL id k).length ≤ mostDepends cntL k := by
  unfold hashLong mostDepends
  split
  · simp
  · rename_i hk
    simp only []
    rw [Finset.length_sort]
    refine le_min ?_ ?_
    · have hsub : (((List.range (available n (if cntL = 0 then k / 10 + 1 else cntL))).map
          (fun i => drawn H id n i % k)).take (if cntL = 0 then k / 10 + 1 else cntL)).toFinset ⊆ Finset.range k := by
        intro x hx
        have hx := List.mem_of_mem_take (List.mem_toFinset.mp hx)
        obtain ⟨i, -, rfl⟩ := List.mem_map.mp hx
        exact Finset.mem_range.mpr (Nat.mod_lt _ (by omega))
      simpa using Finset.card_le_card hsub
    · refine (List.toFinset_card_le _).trans ?_
      rw [List.length_take]
      exact Nat.min_le_left _ _

theorem hashLong_pos (H : Bytes → Bytes) (n cntL : Nat) (id : Bytes) (k : Nat) (hk : 0 < k) :
    0 < (hashLong H n cntL id k).length := by
  unfold hashLong
  rw [if_neg (by omega)]
  simp only []
  rw [Finset.length_sort, Finset.card_pos]
  set count := if cntL = 0 then k / 10 + 1 else cntL with hc
  have h1 : 0 < count := by rw [hc]; split <;> omega
  have h2 : 0 < available n count := by unfold available; split_ifs <;> omega
  refine ⟨drawn H id n 0 % k, List.mem_toFinset.mpr ?_⟩
  refine List.mem_iff_getElem.mpr ⟨0, ?_, ?_⟩
  · simp; omega
  · simp

/-- The number of bytes in an answer. -/
def answerBytes (resp : Response) : Nat :=
  resp.hash.length + resp.blocks.flatten.flatten.length + resp.beforeIds.flatten.length +
    resp.dependBlocks.flatten.flatten.flatten.length + resp.proof.flatten.length

/-- A block in the answer: `c` units of the padded length. -/
def BlockShape (params : PosPara) (c : Nat) (b : List Bytes) : Prop :=
  b.length = c ∧ ∀ u ∈ b, u.length = params.unitPl

theorem length_flatten_le {α : Type} (l : List (List α)) (m : Nat) (h : ∀ x ∈ l, x.length ≤ m) :
    l.flatten.length ≤ l.length * m := by
  induction l with
  | nil => simp
  | cons x l ih =>
    have h1 := h x (by simp)
    have h2 := ih (fun y hy => h y (by simp [hy]))
    rw [List.flatten_cons, List.length_append, List.length_cons, Nat.succ_mul]
    omega

theorem plainUnits_shape {params : PosPara} {c : Nat} (file : Bytes) (k : Nat) :
    BlockShape params c (plainUnits params c file k) := by
  refine ⟨plainUnits_length _ _ _ _, fun u hu => ?_⟩
  obtain ⟨j, -, rfl⟩ := List.mem_map.mp hu
  exact readFile_length _ _ _

/-- The parts of the answer to a challenge, whatever file it is answered from: one block per index,
one 32-byte identifier per index other than 0, between one and `mostDepends` whole dependency blocks
per index other than 0, one hash, and at most one hash per index and tree layer. -/
theorem C106_parts (H Hs : Bytes → Bytes) (hH : ∀ x, (H x).length = 32) (hHs : ∀ x, (Hs x).length = 32)
    (params : PosPara) (p n c : Nat) (cfg : Config params p n c) (hL : params.modeL = 0) (hn : LongCountOk n params.cntL)
    (ids : List Bytes) (hids : ids.length = n) (leaves : List Bytes) (tree : MerkleTree) (root : Bytes)
    (hm : generateMerkleTreeFromData Hs ids = .ok (leaves, tree, root)) (file : Bytes)
    (r : UInt8) (indices : List Nat) (hs : indices.Pairwise (· < ·)) (hne : indices ≠ []) (hlt : ∀ k ∈ indices, k < n) :
    ∃ resp, proverRespond H params file tree r indices = .ok resp ∧ resp.hash.length = 32 ∧
      resp.blocks.length = indices.length ∧ (∀ b ∈ resp.blocks, BlockShape params c b) ∧
      resp.beforeIds.map List.length = indices.map (fun k => if k = 0 then 0 else 32) ∧
      resp.dependBlocks.length = indices.length ∧
      (∀ (i k : Nat) (deps : List (List Bytes)), indices[i]? = some k → resp.dependBlocks[i]? = some deps →
        deps.length ≤ mostDepends params.cntL k ∧ (0 < k → 0 < deps.length) ∧ ∀ b ∈ deps, BlockShape params c b) ∧
      (∀ h ∈ resp.proof, h.length = 32) ∧ resp.proof.length ≤ indices.length * treeDepth n := by
  obtain ⟨proof, m1, m2, m3⟩ := C106_merkle Hs hHs ids leaves tree root hm indices hs hne
    (fun k hk => by rw [hids]; exact hlt k hk)
  rw [hids] at m3
  set pr : Nat → Prepared := fun k => ⟨plainUnits params c file k,
      (if k ≠ 0 then H (readFile file ((k - 1) * params.blockPl) params.blockPl) else []),
      (hashLong H n params.cntL (H (readFile file ((k - 1) * params.blockPl) params.blockPl)) k).map
        (plainUnits params c file)⟩ with hpr
  have hresp : proverRespond H params file tree r indices =
      .ok ⟨H (responseBytes r (indices.map fun k => (pr k).block)), indices.map fun k => (pr k).block,
        indices.map fun k => (pr k).beforeId, indices.map fun k => (pr k).dependBlocks, proof⟩ := by
    unfold proverRespond
    rw [proverLoop_eq indices (pr := pr) (fun k hk => prepare_any hH cfg hL hn file)]
    simp only [bind_ok]
    rw [m1]
    rfl
  refine ⟨_, hresp, hH _, by simp, ?_, ?_, by simp, ?_, m2, m3⟩
  · intro b hb
    obtain ⟨k, -, rfl⟩ := List.mem_map.mp hb
    exact plainUnits_shape file k
  · simp only [List.map_map]
    apply List.map_congr_left
    intro k _
    simp only [Function.comp, hpr]
    by_cases hk : k = 0
    · simp [hk]
    · simp [hk, hH]
  · intro i k deps hi hd
    simp only [List.getElem?_map, hi, Option.map_some, Option.some.injEq] at hd
    subst hd
    refine ⟨?_, fun hk => ?_, ?_⟩
    · rw [hpr]
      simp only [List.length_map]
      exact hashLong_length _ _ _ _ _
    · rw [hpr]
      simp only [List.length_map]
      exact hashLong_pos _ _ _ _ _ hk
    · intro b hb
      rw [hpr] at hb
      obtain ⟨j, -, rfl⟩ := List.mem_map.mp hb
      exact plainUnits_shape file j

theorem mostDepends_mono {cntL a b : Nat} (h : a ≤ b) : mostDepends cntL a ≤ mostDepends cntL b := by
  unfold mostDepends
  have : a / 10 ≤ b / 10 := Nat.div_le_div_right h
  split <;> omega

theorem shape_total {params : PosPara} {c : Nat} (hb : params.blockPl = c * params.unitPl) {l : List (List Bytes)}
    (h : ∀ b ∈ l, BlockShape params c b) : l.flatten.flatten.length = l.length * params.blockPl := by
  induction l with
  | nil => simp
  | cons b l ih =>
    obtain ⟨h1, h2⟩ := h b (by simp)
    rw [List.flatten_cons, List.flatten_append, List.length_append, ih (fun x hx => h x (by simp [hx])),
      flatten_length_const b params.unitPl h2, h1, ← hb, List.length_cons, Nat.succ_mul]
    omega

theorem depends_total {m : Nat} (indices : List Nat) (D : List (List (List Bytes))) (hl : D.length = indices.length)
    (h : ∀ (i k : Nat) (deps : List (List Bytes)), indices[i]? = some k → D[i]? = some deps → deps.length ≤ m ∧ (0 < k → 0 < deps.length)) :
    (indices.filter (fun k => decide (0 < k))).length ≤ D.flatten.length ∧ D.flatten.length ≤ indices.length * m := by
  induction indices generalizing D with
  | nil =>
    have : D = [] := List.length_eq_zero_iff.mp hl
    subst this
    simp
  | cons a l ih =>
    cases D with
    | nil => simp at hl
    | cons d D =>
      obtain ⟨i1, i2⟩ := ih D (by simpa using hl) (fun i k deps hi hd => h (i + 1) k deps (by simpa using hi) (by simpa using hd))
      obtain ⟨j1, j2⟩ := h 0 a d rfl rfl
      rw [List.flatten_cons, List.length_append, List.length_cons, Nat.succ_mul, List.filter_cons]
      constructor
      · split
        · rename_i ha
          have := j2 (by simpa using ha)
          rw [List.length_cons]
          omega
        · omega
      · omega

/-- The size of the whole answer: with `m` the most dependency blocks any index can have, at most
`1 + m` sealed blocks per index, and 32 bytes for the hash, each identifier and each proof node. -/
theorem C106_total (H Hs : Bytes → Bytes) (hH : ∀ x, (H x).length = 32) (hHs : ∀ x, (Hs x).length = 32)
    (params : PosPara) (p n c : Nat) (cfg : Config params p n c) (hL : params.modeL = 0) (hn : LongCountOk n params.cntL)
    (ids : List Bytes) (hids : ids.length = n) (leaves : List Bytes) (tree : MerkleTree) (root : Bytes)
    (hm : generateMerkleTreeFromData Hs ids = .ok (leaves, tree, root)) (file : Bytes)
    (r : UInt8) (indices : List Nat) (hs : indices.Pairwise (· < ·)) (hne : indices ≠ []) (hlt : ∀ k ∈ indices, k < n)
    (resp : Response) (h : proverRespond H params file tree r indices = .ok resp) :
    answerBytes resp ≤ indices.length * ((1 + mostDepends params.cntL (n - 1)) * params.blockPl) +
        32 * (1 + indices.length + indices.length * treeDepth n) ∧
      (indices.length + (indices.filter (fun k => decide (0 < k))).length) * params.blockPl ≤ answerBytes resp := by
  obtain ⟨resp', e, h1, h2, h3, h4, h5, h6, h7, h8⟩ := C106_parts H Hs hH hHs params p n c cfg hL hn ids hids leaves
    tree root hm file r indices hs hne hlt
  rw [h] at e
  injection e with e
  subst e
  have hblocks := shape_total cfg.block_pl h3
  have hdb : ∀ b ∈ resp.dependBlocks.flatten, BlockShape params c b := by
    intro b hb
    obtain ⟨deps, hd, hb⟩ := List.mem_flatten.mp hb
    obtain ⟨i, hi, rfl⟩ := List.mem_iff_getElem.mp hd
    exact (h6 i indices[i] _ (List.getElem?_eq_getElem (by omega)) (List.getElem?_eq_getElem hi)).2.2 b hb
  have hdeps := shape_total cfg.block_pl hdb
  obtain ⟨l1, l2⟩ := depends_total (m := mostDepends params.cntL (n - 1)) indices resp.dependBlocks h5
    (fun i k deps hi hd => by
      obtain ⟨a, b, -⟩ := h6 i k deps hi hd
      refine ⟨a.trans (mostDepends_mono ?_), b⟩
      have := hlt k (List.mem_of_getElem? hi)
      omega)
  have hids' : resp.beforeIds.flatten.length ≤ indices.length * 32 := by
    have hl : resp.beforeIds.length = indices.length := by
      have := congrArg List.length h4
      simpa using this
    rw [← hl]
    apply length_flatten_le
    intro x hx
    have : x.length ∈ resp.beforeIds.map List.length := List.mem_map.mpr ⟨x, hx, rfl⟩
    rw [h4] at this
    obtain ⟨k, -, hk⟩ := List.mem_map.mp this
    split at hk <;> omega
  have hproof := flatten_length_const resp.proof 32 h7
  have e1 : resp.dependBlocks.flatten.length * params.blockPl ≤
      indices.length * mostDepends params.cntL (n - 1) * params.blockPl := Nat.mul_le_mul_right _ l2
  have e2 : (indices.filter (fun k => decide (0 < k))).length * params.blockPl ≤
      resp.dependBlocks.flatten.length * params.blockPl := Nat.mul_le_mul_right _ l1
  unfold answerBytes
  rw [h1, hblocks, hdeps, hproof, h2]
  constructor
  · rw [Nat.add_mul, Nat.mul_add, ← Nat.mul_assoc, ← Nat.mul_assoc, Nat.mul_one]
    omega
  · rw [Nat.add_mul]
    omega

/-- In the shipped parameter sets (256 blocks, no number of long dependencies configured) the answer
for one index holds up to 27 sealed blocks, and at least two unless the index is 0. -/
theorem C106_shipped (H Hs : Bytes → Bytes) (hH : ∀ x, (H x).length = 32) (hHs : ∀ x, (Hs x).length = 32) (l : Nat)
    (ids : List Bytes) (hids : ids.length = 256) (leaves : List Bytes) (tree : MerkleTree) (root : Bytes)
    (hm : generateMerkleTreeFromData Hs ids = .ok (leaves, tree, root)) (file : Bytes)
    (r : UInt8) (k : Nat) (hk : k < 256) (resp : Response)
    (h : proverRespond H (genPosdata l) file tree r [k] = .ok resp) :
    answerBytes resp ≤ 27 * (genPosdata l).blockPl + 320 ∧
      (0 < k → 2 * (genPosdata l).blockPl ≤ answerBytes resp) := by
  obtain ⟨c, hc, cfg, hL, -⟩ := genPosdata_config l _ prime_P_512 (by norm_num) (by norm_num) (by norm_num)
  have hcnt : (genPosdata l).cntL = 0 := by
    unfold genPosdata
    split
    · rfl
    · split
      · rfl
      · split <;> rfl
  obtain ⟨h1, h2⟩ := C106_total H Hs hH hHs _ _ 256 c cfg hL (by omega) ids hids leaves tree root hm file r [k]
    (by simp) (by simp) (by simpa using hk) resp h
  have hd : treeDepth 256 = 8 := by decide +kernel
  rw [hcnt, hd] at h1
  have hm26 : mostDepends 0 (256 - 1) = 26 := by decide
  rw [hm26] at h1
  simp only [List.length_cons, List.length_nil] at h1 h2
  refine ⟨by omega, fun h0 => ?_⟩
  rw [List.filter_cons, if_pos (by simpa using h0)] at h2
  simp only [List.filter_nil, List.length_cons, List.length_nil] at h2
  omega

/-- Three blocks of two units of 64 bytes, two dependencies requested: the answer for blocks 0 and 2
takes block 2 together with one or two earlier blocks. -/
example : (match copyAndPad (toyFile 378) 378 63 with
    | .ok padded => (match sealFile toyHash (toyParams 3 2 0 0 2 1 1) padded P_512 [1, 2, 3] with
      | .ok st => (match generateMerkleTreeFromData toyHash st.ids with
        | .ok (_, tree, _) => (match proverRespond toyHash (toyParams 3 2 0 0 2 1 1) st.file tree 7 [0, 2] with
          | .ok resp => decide (st.ids.length = 3 ∧ resp.blocks.map (·.map List.length) = [[64, 64], [64, 64]]
              ∧ resp.beforeIds.map List.length = [0, 32] ∧ (resp.dependBlocks.map List.length).getD 0 9 = 0
              ∧ 1 ≤ (resp.dependBlocks.map List.length).getD 1 9 ∧ (resp.dependBlocks.map List.length).getD 1 9 ≤ 2
              ∧ resp.proof.length ≤ 4 ∧ answerBytes resp ≤ 2 * (3 * 128) + 32 * (1 + 2 + 4) ∧ 3 * 128 ≤ answerBytes resp)
          | .error _ => false)
        | .error _ => false)
      | .error _ => false)
    | .error _ => false) = true := by decide +kernel

end PoS
