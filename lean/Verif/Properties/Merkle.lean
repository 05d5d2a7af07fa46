import Verif.Proofs.Merkle
import Verif.Spec.Toy

/-
Merkle properties: C30, C31, C32, C59.
-/

namespace PoS

/-! ### C31: honest proofs are accepted -/

/-- For any non-empty list of values and any strictly increasing, in-range, non-empty list of
positions (what `create_challenges` returns), the generated proof verifies. -/
theorem C31_completeness (H : Bytes → Bytes) (hH : ∀ x, (H x).length = 32) (values : List Bytes)
    (hv : values ≠ []) (indices : List Nat) (hs : indices.Pairwise (· < ·)) (hne : indices ≠ [])
    (hlt : ∀ k ∈ indices, k < values.length) :
    ∃ leaves tree root proof, generateMerkleTreeFromData H values = .ok (leaves, tree, root) ∧
      leaves = values.map H ∧
      generateMerkleProof indices tree = .ok proof ∧
      verifyMerkleProof H proof root indices leaves = .ok () := by
  have hl : values.map H ≠ [] := by simpa using hv
  obtain ⟨h1, h2⟩ := merkleFromLeaves_eq H hl
  set leaves := values.map H with hleaves
  have hlen : leaves.length = values.length := by simp [hleaves]
  have hpos : 0 < leaves.length := List.length_pos_of_ne_nil hl
  have ht : ∀ k < leaves.length, ((fun k => leaves[k]?.getD []) k).length = 32 := by
    intro k hk
    simp only [List.getElem?_eq_getElem hk, Option.getD_some]
    simp only [hleaves, List.getElem_map]
    exact hH _
  have hidx : Idx leaves.length indices := ⟨hs, fun k hk => by rw [hlen]; exact hlt k hk⟩
  refine ⟨leaves, merkleFromLeaves H leaves, topValue H (treeDepth leaves.length) leaves.length (fun k => leaves[k]?.getD []),
    (merkleFromLeaves H leaves).proof indices, ?_, rfl, ?_, ?_⟩
  rotate_left
  · unfold generateMerkleProof
    rw [proof_roundtrip]
    intro x hx
    unfold MerkleTree.proof at hx
    obtain ⟨y, hy, rfl⟩ := List.mem_map.mp hx
    obtain ⟨layer, hlay, hyl⟩ := helperNodes_mem _ _ y hy
    rw [h1] at hlay
    exact fullLayers_length H hH _ _ _ ht layer hlay y hyl
  · rw [verifyMerkleProof_iff]
    refine ⟨hidx.lt, ?_⟩
    obtain ⟨ks, v, hk1, hk2, hk3, hk4⟩ := proofRoot_eq H hpos ((merkleFromLeaves H leaves).proof indices) indices
      (indices.map (fun k => leaves[k]?.getD [])) (by simp) (hs.imp (fun h => by omega)) hidx.lt
    have hks : ks = indices := eq_of_strict hk1.strict hs (fun k => hk2.mem_iff)
    subst hks
    rw [hk4]
    have hv' : nodesOf v ks = nodesOf (fun k => leaves[k]?.getD []) ks := by
      rw [← hk3, zip_map_self]
      apply sortNodes_eq _ (List.Perm.refl _)
      unfold nodesOf
      rw [List.pairwise_map]
      exact hs
    rw [hv']
    obtain ⟨L, hg, tree, hb, hr⟩ := group_full H (treeDepth leaves.length) leaves.length
      (fun k => leaves[k]?.getD []) ks hidx (levels_treeDepth hpos) hne []
    rw [List.append_nil] at hg
    unfold MerkleTree.proof
    rw [h1, hg]
    simp only [Option.bind_some, hb]
    exact hr
  · unfold generateMerkleTreeFromData
    simp only []
    rw [← hleaves, h2]

/-- An empty value list has no root: building the tree panics. -/
theorem C31_empty_panics (H : Bytes → Bytes) : generateMerkleTreeFromData H [] = .error .unwrap := rfl

/-- An empty challenge is never accepted (for one leaf or more). -/
theorem C31_empty_challenge_rejected (H : Bytes → Bytes) (proof : List Bytes) (root : Bytes)
    (leaves : List Bytes) (hl : leaves ≠ []) : verifyMerkleProof H proof root [] leaves ≠ .ok () := by
  rw [ne_eq, verifyMerkleProof_iff]
  rintro ⟨-, h⟩
  have hpos : 0 < leaves.length := List.length_pos_of_ne_nil hl
  obtain ⟨ks, v, hk1, hk2, hk3, hk4⟩ := proofRoot_eq H hpos proof [] [] rfl List.nodup_nil (by simp)
  have : ks = [] := List.perm_nil.mp hk2
  subst this
  simp only [List.map_nil] at h
  rw [hk4] at h
  have key : ∀ d L, (buildTree H d [] L).bind rootOfLayers = none ∨ (∃ l ∈ L, l ≠ []) := by
    intro d
    induction d with
    | zero => intro L; exact Or.inl rfl
    | succ d ih =>
      intro L
      by_cases hL : ∃ l ∈ L, l ≠ []
      · exact Or.inr hL
      · left
        have hh : L.headD [] = [] := by
          cases L with
          | nil => rfl
          | cons a L => by_contra hne; exact hL ⟨a, by simp, hne⟩
        have hb : buildTree H (d + 1) [] L = (buildTree H d [] L.tail).bind (fun rest => some ([] :: rest)) := by
          conv_lhs => unfold buildTree
          simp only [hh]
          rfl
        rw [hb]
        rcases ih L.tail with h1 | ⟨l, h1, h2⟩
        · cases hc : buildTree H d [] L.tail with
          | none => rfl
          | some tree =>
            rw [hc] at h1
            show rootOfLayers ([] :: tree) = none
            cases tree with
            | nil => rfl
            | cons a t =>
              unfold rootOfLayers at h1 ⊢
              rw [List.getLast?_cons_cons]
              exact h1
        · exact absurd ⟨l, List.mem_of_mem_tail h1, h2⟩ hL
  rw [Option.bind_eq_some_iff] at h
  obtain ⟨L, hg, h⟩ := h
  rcases key (treeDepth leaves.length) L with h1 | ⟨l, h1, h2⟩
  · change (buildTree H (treeDepth leaves.length) [] L).bind rootOfLayers = some root at h
    rw [h1] at h
    cases h
  · -- no helper is ever asked for
    have hz : ∀ d m proof L, groupHashes (proofIndicesByLayers d m []) proof = some L → ∀ l ∈ L, l = [] := by
      intro d
      induction d with
      | zero =>
        intro m proof L hg l hl
        cases hg
        cases hl
      | succ d ih =>
        intro m proof L hg l hl
        have hh : helperIndices m [] = [] := by
          unfold helperIndices difference
          simp
        unfold proofIndicesByLayers groupHashes at hg
        rw [hh] at hg
        simp only [List.length_nil, Nat.zero_le, if_true, List.drop_zero, List.take_zero, List.zip_nil_left,
          Option.bind_eq_bind] at hg
        rw [Option.bind_eq_some_iff] at hg
        obtain ⟨more, hm, hg⟩ := hg
        cases hg
        rcases List.mem_cons.mp hl with rfl | hl
        · rfl
        · exact ih _ _ _ hm l hl
    exact absurd (hz _ _ _ _ hg l h1) h2

/-! ### C32: what an accepted proof guarantees -/

/-- If any proof is accepted against the root of `values` for claimed leaves (as many as there
are values), every claimed leaf at a proven position is the committed one — unless a string hashed
while checking the proof and a different string hashed while building the tree have the same hash. -/
theorem C32_binding (H : Bytes → Bytes) (hH : ∀ x, (H x).length = 32) (values : List Bytes)
    (leaves : List Bytes) (tree : MerkleTree) (root : Bytes)
    (hgen : generateMerkleTreeFromData H values = .ok (leaves, tree, root))
    (claimed : List Bytes) (hcl : claimed.length = values.length) (hc32 : ∀ x ∈ claimed, x.length = 32)
    (proof : List Bytes) (hp32 : ∀ x ∈ proof, x.length = 32)
    (indices : List Nat) (hnd : indices.Nodup)
    (hacc : verifyMerkleProof H proof root indices claimed = .ok ()) :
    (∃ layers, proofLayers H proof indices (indices.map fun k => claimed[k]?.getD []) claimed.length = some layers ∧
        Collides H (innerStrings layers) (innerStrings tree.layers)) ∨
      ∀ k ∈ indices, ∃ value, values[k]? = some value ∧ claimed[k]? = some (H value) := by
  have hv : values ≠ [] := by
    rintro rfl
    cases hgen
  have hl : values.map H ≠ [] := by simpa using hv
  obtain ⟨h1, h2⟩ := merkleFromLeaves_eq H hl
  unfold generateMerkleTreeFromData at hgen
  simp only [h2] at hgen
  have hgen := Except.ok.inj hgen
  simp only [Prod.mk.injEq] at hgen
  obtain ⟨hleaves, htree, hroot⟩ := hgen
  have hlen : leaves.length = values.length := by rw [← hleaves]; simp
  rw [htree, hleaves] at h1
  rw [hleaves] at hroot
  have hpos : 0 < leaves.length := by rw [hlen]; exact List.length_pos_of_ne_nil hv
  have ht : ∀ k < leaves.length, ((fun k => leaves[k]?.getD []) k).length = 32 := by
    intro k hk
    simp only [List.getElem?_eq_getElem hk, Option.getD_some]
    subst hleaves
    simp only [List.getElem_map]
    exact hH _
  rw [verifyMerkleProof_iff] at hacc
  obtain ⟨hlt, hacc⟩ := hacc
  have hcn : claimed.length = leaves.length := by omega
  rw [hcn] at hacc hlt
  obtain ⟨ks, v, hk1, hk2, hk3, hk4⟩ := proofLayers_eq H hpos proof indices
      (indices.map (fun k => claimed[k]?.getD [])) (by simp) hnd hlt
  rw [proofRoot_layers, Option.bind_eq_some_iff] at hacc
  obtain ⟨t, hpl, hr⟩ := hacc
  have hpl' := hpl
  rw [hk4, Option.bind_eq_some_iff] at hpl'
  obtain ⟨L, hg, hb⟩ := hpl'
  have hvk : ∀ k ∈ ks, v k = claimed[k]?.getD [] := by
    intro k hk
    have hm : (k, v k) ∈ sortNodes (indices.zip (indices.map (fun k => claimed[k]?.getD []))) := by
      rw [hk3]; exact List.mem_map.mpr ⟨k, hk, rfl⟩
    rw [(sortNodes_perm _).mem_iff, zip_map_self] at hm
    obtain ⟨k', -, e⟩ := List.mem_map.mp hm
    simp only [Prod.mk.injEq] at e
    rw [← e.2, e.1]
  have hv32 : ∀ k ∈ ks, (v k).length = 32 := by
    intro k hk
    rw [hvk k hk]
    have : k < claimed.length := by rw [hcn]; exact hk1.lt k hk
    rw [List.getElem?_eq_getElem this]
    exact hc32 _ (List.getElem_mem this)
  rw [← hroot] at hr
  rcases binding H hH _ _ _ v ks hk1 (levels_treeDepth hpos) ht hv32 proof hp32 L t hg hb hr with hc | heq
  · left
    refine ⟨t, by rw [hcn]; exact hpl, ?_⟩
    rw [h1]
    exact hc
  · right
    intro k hk
    have hkk := hk2.mem_iff.mpr hk
    have hkl := hk1.lt k hkk
    have e := heq k hkk
    rw [hvk k hkk, List.getElem?_eq_getElem (show k < claimed.length by omega), List.getElem?_eq_getElem hkl] at e
    simp only [Option.getD_some] at e
    have hkv : k < values.length := by omega
    refine ⟨values[k], List.getElem?_eq_getElem hkv, ?_⟩
    rw [List.getElem?_eq_getElem (show k < claimed.length by omega), e]
    subst hleaves
    simp

/-- The converse side: what the root does not fix.  For two or more leaves the list of their
pairwise parents has the same root, so the number of leaves must be known independently. -/
theorem C32_leaf_count_not_bound (H : Bytes → Bytes) (leaves : List Bytes) (hl : 2 ≤ leaves.length) :
    let parents := (List.range ((leaves.length + 1) / 2)).map (fun q =>
      match leaves[2 * q + 1]? with
      | some r => H (leaves[2 * q]?.getD [] ++ r)
      | none => leaves[2 * q]?.getD [])
    parents.length < leaves.length ∧
      (merkleFromLeaves H parents).root = (merkleFromLeaves H leaves).root := by
  intro parents
  have hplen : parents.length = (leaves.length + 1) / 2 := by simp [parents]
  have hpne : parents ≠ [] := by
    intro e
    rw [e] at hplen
    simp at hplen
    omega
  have hlne : leaves ≠ [] := by
    intro e; rw [e] at hl; simp at hl
  refine ⟨by omega, ?_⟩
  rw [(merkleFromLeaves_eq H hpne).2, (merkleFromLeaves_eq H hlne).2, hplen]
  congr 1
  have hval : ∀ q < (leaves.length + 1) / 2, parents[q]?.getD [] = up H leaves.length (fun k => leaves[k]?.getD []) q := by
    intro q hq
    have : parents[q]? = some (match leaves[2 * q + 1]? with
      | some r => H (leaves[2 * q]?.getD [] ++ r)
      | none => leaves[2 * q]?.getD []) := by
      simp only [parents, List.getElem?_map, List.getElem?_range hq, Option.map_some]
    rw [this, Option.getD_some]
    unfold up
    by_cases hb : 2 * q + 1 < leaves.length
    · rw [if_pos hb]
      simp only [List.getElem?_eq_getElem hb, Option.getD_some]
    · rw [if_neg hb, List.getElem?_eq_none (by omega)]
  rw [treeDepth_half hl]
  split
  · next h2 =>
    rw [h2] at hval ⊢
    have e : treeDepth 1 = 1 := by decide
    rw [e]
    have e2 : (2 + 1) / 2 = 1 := rfl
    rw [e2]
    have e3 : ∀ m t, topValue H 1 m t = up H m t 0 := fun _ _ => rfl
    rw [e3, e3, ← hval 0 (by omega)]
    unfold up
    rw [if_neg (by omega)]
  · show topValue H _ _ _ = topValue H _ ((leaves.length + 1) / 2) (up H leaves.length _)
    exact topValue_congr H _ _ _ _ (levels_treeDepth (by omega)) hval

/-- Hashes beyond those needed are ignored: proofs are malleable. -/
theorem C32_trailing_hashes_ignored (H : Bytes → Bytes) (proof extra : List Bytes) (root : Bytes)
    (indices : List Nat) (leaves : List Bytes)
    (h : verifyMerkleProof H proof root indices leaves = .ok ()) :
    verifyMerkleProof H (proof ++ extra) root indices leaves = .ok () := by
  rw [verifyMerkleProof_iff] at h ⊢
  refine ⟨h.1, ?_⟩
  have hg : ∀ (is : List (List Nat)) (p : List Bytes) L, groupHashes is p = some L →
      groupHashes is (p ++ extra) = some L := by
    intro is
    induction is with
    | nil => intro p L h; exact h
    | cons i is ih =>
      intro p L h
      unfold groupHashes at h ⊢
      split at h
      · next hle =>
        rw [if_pos (by rw [List.length_append]; omega)]
        simp only [Option.bind_eq_bind] at h ⊢
        rw [Option.bind_eq_some_iff] at h
        obtain ⟨more, hm, h⟩ := h
        rw [List.drop_append_of_le_length hle, List.take_append_of_le_length hle, ih _ _ hm]
        exact h
      · cases h
  have h2 := h.2
  unfold proofRoot at h2 ⊢
  split at h2
  · cases h2
  · next hl =>
    rw [if_neg hl]
    simp only [Option.bind_eq_bind] at h2 ⊢
    rw [Option.bind_eq_some_iff] at h2
    obtain ⟨L, hL, h2⟩ := h2
    rw [hg _ _ _ hL]
    exact h2

/-! ### C30: the tree over a file -/

/-- The leaves of the file tree: `ceil(data_len / leaf_len)` many, leaf `i` the hash of the
bytes from `(i + 1) * leaf_len` on. -/
theorem C30_leaves (H : Bytes → Bytes) (file : Bytes) (dataLen leafLen : Nat) (hl : 0 < leafLen)
    (hd : 0 < dataLen) :
    ∃ tree root, generateMerkleTreeFromFile H file dataLen leafLen =
      .ok ((List.range ((dataLen + leafLen - 1) / leafLen)).map
        (fun i => H (readFile file ((i + 1) * leafLen) leafLen)), tree, root) := by
  have hs := stepBy_eq hl dataLen 0 dataLen (by omega)
  have e : (List.range ((dataLen + leafLen - 1) / leafLen)).map
        (fun i => H (readFile file ((i + 1) * leafLen) leafLen)) =
      ((stepBy dataLen 0 dataLen leafLen).map (fun i => readFile file (i + leafLen) leafLen)).map H := by
    rw [hs, List.map_map, List.map_map]
    simp only [Nat.sub_zero]
    apply List.map_congr_left
    intro i _
    simp only [Function.comp]
    congr 2
    ring
  have hne : ((stepBy dataLen 0 dataLen leafLen).map (fun i => readFile file (i + leafLen) leafLen)).map H ≠ [] := by
    rw [← e]
    intro h
    rw [List.map_eq_nil_iff, List.range_eq_nil] at h
    have : 0 < (dataLen + leafLen - 1) / leafLen := Nat.div_pos (by omega) hl
    omega
  unfold generateMerkleTreeFromFile
  rw [if_neg (by omega)]
  simp only []
  rw [e, (merkleFromLeaves_eq H hne).2]
  exact ⟨_, _, rfl⟩

/-- Changing the first leaf's worth of the file in any way never changes the result. -/
theorem C30_first_leaf_ignored (H : Bytes → Bytes) (file file' : Bytes) (dataLen leafLen : Nat)
    (h : file.drop leafLen = file'.drop leafLen) :
    generateMerkleTreeFromFile H file dataLen leafLen = generateMerkleTreeFromFile H file' dataLen leafLen := by
  have hr : ∀ i, readFile file (i + leafLen) leafLen = readFile file' (i + leafLen) leafLen := by
    intro i
    unfold readFile
    have : file.drop (i + leafLen) = file'.drop (i + leafLen) := by
      rw [Nat.add_comm, ← List.drop_drop, ← List.drop_drop, h]
    rw [this]
  unfold generateMerkleTreeFromFile
  simp only [hr]

/-- Exactly what equal roots mean: the zero-extended bytes after the first leaf, up to one leaf
beyond the configured length, agree — or two different strings among those hashed for the two trees,
inner nodes or leaf contents, have the same hash. -/
theorem C30_equal_roots (H : Bytes → Bytes) (hH : ∀ x, (H x).length = 32) (file file' : Bytes)
    (dataLen leafLen : Nat) (l l' : List Bytes) (t t' : MerkleTree) (root : Bytes)
    (h : generateMerkleTreeFromFile H file dataLen leafLen = .ok (l, t, root))
    (h' : generateMerkleTreeFromFile H file' dataLen leafLen = .ok (l', t', root)) :
    Collides H (innerStrings t.layers) (innerStrings t'.layers) ∨
      Collides H (leafContents file dataLen leafLen) (leafContents file' dataLen leafLen) ∨
      ∀ x, leafLen ≤ x → x < ((dataLen + leafLen - 1) / leafLen + 1) * leafLen →
        file[x]?.getD 0 = file'[x]?.getD 0 := by
  by_cases hcol : Collides H (leafContents file dataLen leafLen) (leafContents file' dataLen leafLen)
  · exact Or.inr (Or.inl hcol)
  have hl : 0 < leafLen := by
    rcases Nat.eq_zero_or_pos leafLen with h0 | h0
    · subst h0; unfold generateMerkleTreeFromFile at h; rw [if_pos rfl] at h; cases h
    · exact h0
  have hd : 0 < dataLen := by
    rcases Nat.eq_zero_or_pos dataLen with h0 | h0
    · subst h0; unfold generateMerkleTreeFromFile at h; rw [if_neg (by omega)] at h; cases h
    · exact h0
  set n := (dataLen + leafLen - 1) / leafLen with hn
  have hnpos : 0 < n := Nat.div_pos (by omega) hl
  have key : ∀ (f : Bytes) l t, generateMerkleTreeFromFile H f dataLen leafLen = .ok (l, t, root) →
      root = topValue H (treeDepth n) n (fun k => ((List.range n).map
        (fun i => H (readFile f ((i + 1) * leafLen) leafLen)))[k]?.getD []) ∧
      t.layers = fullLayers H (treeDepth n) n (fun k => ((List.range n).map
        (fun i => H (readFile f ((i + 1) * leafLen) leafLen)))[k]?.getD []) := by
    intro f l t hf
    obtain ⟨tree, r, hg⟩ := C30_leaves H f dataLen leafLen hl hd
    rw [hf] at hg
    have hg := Except.ok.inj hg
    simp only [Prod.mk.injEq] at hg
    obtain ⟨e1, -, -⟩ := hg
    unfold generateMerkleTreeFromFile at hf
    rw [if_neg (by omega)] at hf
    simp only [] at hf
    split at hf
    · next root' hroot =>
      have hf := Except.ok.inj hf
      simp only [Prod.mk.injEq] at hf
      obtain ⟨e2, e4, e3⟩ := hf
      rw [e2, e1] at hroot e4
      have hne : (List.range n).map (fun i => H (readFile f ((i + 1) * leafLen) leafLen)) ≠ [] := by
        intro h0
        rw [List.map_eq_nil_iff, List.range_eq_nil] at h0
        omega
      rw [(merkleFromLeaves_eq H hne).2, e3] at hroot
      have := (Option.some.inj hroot).symm
      refine ⟨by simpa using this, ?_⟩
      rw [← e4, (merkleFromLeaves_eq H hne).1]
      simp
    · cases hf
  have e := (key file l t h).1.symm.trans (key file' l' t' h').1
  rw [(key file l t h).2, (key file' l' t' h').2]
  have hgd : ∀ (f : Bytes) k, k < n → ((List.range n).map
        (fun i => H (readFile f ((i + 1) * leafLen) leafLen)))[k]?.getD [] =
        H (readFile f ((k + 1) * leafLen) leafLen) := by
    intro f k hk
    rw [List.getElem?_map, List.getElem?_range hk]
    rfl
  rcases topValue_inj H hH _ _ _ _ (levels_treeDepth hnpos) (fun k hk => by rw [hgd _ _ hk]; exact hH _)
    (fun k hk => by rw [hgd _ _ hk]; exact hH _) e with hc | heq
  · exact Or.inl hc
  · refine Or.inr (Or.inr ?_)
    intro x hx1 hx2
    have hdm := Nat.div_add_mod' x leafLen
    have hml := Nat.mod_lt x hl
    have hq1 : 1 ≤ x / leafLen := (Nat.le_div_iff_mul_le hl).mpr (by omega)
    have hq2 : x / leafLen < n + 1 := (Nat.div_lt_iff_lt_mul hl).mpr hx2
    have e2 := heq (x / leafLen - 1) (by omega)
    rw [hgd _ _ (by omega), hgd _ _ (by omega)] at e2
    have e3 : readFile file ((x / leafLen - 1 + 1) * leafLen) leafLen =
        readFile file' ((x / leafLen - 1 + 1) * leafLen) leafLen := by
      by_contra hne
      have hm : ∀ f : Bytes, readFile f ((x / leafLen - 1 + 1) * leafLen) leafLen ∈ leafContents f dataLen leafLen :=
        fun f => List.mem_map.mpr ⟨x / leafLen - 1, List.mem_range.mpr (by omega), rfl⟩
      exact hcol ⟨_, hm _, _, hm _, hne, e2⟩
    rw [show x / leafLen - 1 + 1 = x / leafLen by omega] at e3
    have e4 := congrArg (fun l : Bytes => l[x % leafLen]?) e3
    simp only [readFile_getElem?, if_pos hml] at e4
    rw [hdm] at e4
    exact Option.some.inj e4

example : generateMerkleTreeFromFile toyHash [1, 2, 3, 4, 5, 6] 6 2 =
    generateMerkleTreeFromFile toyHash [9, 9, 3, 4, 5, 6] 6 2 ∧
    (∃ l t r, generateMerkleTreeFromFile toyHash [1, 2, 3, 4, 5, 6] 6 2 = .ok (l, t, r) ∧ l.length = 3) :=
  ⟨C30_first_leaf_ignored toyHash _ _ 6 2 rfl, by
    obtain ⟨t, r, h⟩ := C30_leaves toyHash [1, 2, 3, 4, 5, 6] 6 2 (by omega) (by omega)
    exact ⟨_, t, r, h, by simp⟩⟩

/-- Five leaves, two of them proven, one helper layer odd: the proof is non-trivial. -/
example : (match generateMerkleTreeFromData toyHash [[1], [2], [3], [4], [5]] with
    | .ok (leaves, tree, root) => (match generateMerkleProof [1, 4] tree with
      | .ok proof => decide (proof.length = 2 ∧ verifyMerkleProof toyHash proof root [1, 4] leaves = .ok () ∧
          verifyMerkleProof toyHash proof root [1, 4] (leaves.set 4 (leaves[0]?.getD [])) ≠ .ok ())
      | .error _ => false)
    | .error _ => false) = true := by decide +kernel

/-- The strings named in `C32_binding` do not collide in this case, so the theorem forces the claimed
leaves; and they are the four strings one expects: two inner ones here, three there. -/
example : (match generateMerkleTreeFromData toyHash [[1], [2], [3], [4]] with
    | .ok (leaves, tree, root) => (match generateMerkleProof [1] tree with
      | .ok proof => (match proofLayers toyHash proof [1] [leaves[1]?.getD []] 4 with
        | some layers => decide (verifyMerkleProof toyHash proof root [1] leaves = .ok () ∧
            (innerStrings layers).length = 2 ∧ (innerStrings tree.layers).length = 3 ∧
            ¬ Collides toyHash (innerStrings layers) (innerStrings tree.layers))
        | none => false)
      | .error _ => false)
    | .error _ => false) = true := by decide +kernel

/-- Two files with the same root that differ in the first leaf; none of the strings hashed collide. -/
example : (match generateMerkleTreeFromFile toyHash [1, 2, 3, 4, 5, 6] 6 2,
      generateMerkleTreeFromFile toyHash [9, 9, 3, 4, 5, 6] 6 2 with
    | .ok (_, t, r), .ok (_, t', r') => decide (r = r' ∧
        ¬ Collides toyHash (innerStrings t.layers) (innerStrings t'.layers) ∧
        ¬ Collides toyHash (leafContents [1, 2, 3, 4, 5, 6] 6 2) (leafContents [9, 9, 3, 4, 5, 6] 6 2))
    | _, _ => false) = true := by decide +kernel

end PoS
