import Verif.Model.MerkleDepth
import Verif.Proofs.Merkle
import Verif.Spec.Toy

/-
C111: the Merkle functions do not depend on how the library rounds the depth of the tree, as long as
it does not round down.
-/

namespace PoS

/-! ### more levels than needed -/

theorem levels_more {d m : Nat} (h : Levels d m) (e : Nat) : Levels (d + e) m := by
  induction d generalizing m with
  | zero =>
    have h1 : m = 1 := h
    subst h1
    rw [Nat.zero_add]
    induction e with
    | zero => rfl
    | succ e ih => exact ih
  | succ d ih =>
    rw [Nat.add_right_comm]
    exact ih h

theorem parentLayer_top (H : Bytes → Bytes) (top : List Node) (h : top = [] ∨ ∃ r, top = [(0, r)]) :
    parentLayer H (sortNodes top) = some top := by
  rcases h with rfl | ⟨r, rfl⟩
  · rfl
  · simp [parentLayer, parentIndices, dedupAdj, sortNodes, insertNode, concatAndHash]

theorem buildTree_ne_nil (H : Bytes → Bytes) (d : Nat) (cur : List Node) (layers T : List (List Node))
    (h : buildTree H d cur layers = some T) : T ≠ [] := by
  rintro rfl
  cases d with
  | zero => cases h
  | succ d =>
    unfold buildTree at h
    simp only [Option.bind_eq_bind, Option.bind_eq_some_iff] at h
    obtain ⟨_, _, _, _, h⟩ := h
    cases h

theorem buildTree_top (H : Bytes → Bytes) (e : Nat) (top : List Node) (h : top = [] ∨ ∃ r, top = [(0, r)]) :
    buildTree H e top [] = some (top :: List.replicate e top) := by
  induction e with
  | zero => rfl
  | succ e ih =>
    unfold buildTree
    simp only [List.headD_nil, List.append_nil, List.tail_nil]
    have hs : sortNodes top = top := by rcases h with rfl | ⟨r, rfl⟩ <;> rfl
    have hp := parentLayer_top H top h
    rw [hs] at hp ⊢
    simp only [hp, Option.bind_eq_bind, Option.bind_some, ih]
    rfl

theorem buildTree_more (H : Bytes → Bytes) (d e : Nat) (cur : List Node) (layers : List (List Node))
    (hl : layers.length ≤ d) (T : List (List Node)) (h : buildTree H d cur layers = some T)
    (top : List Node) (ht : T.getLast? = some top) (htop : top = [] ∨ ∃ r, top = [(0, r)]) :
    buildTree H (d + e) cur layers = some (T ++ List.replicate e top) := by
  induction d generalizing cur layers T with
  | zero =>
    have h0 : layers = [] := List.eq_nil_of_length_eq_zero (by omega)
    subst h0
    have h1 : [cur] = T := Option.some.inj h
    subst h1
    have h2 : cur = top := by simpa using ht
    subst h2
    rw [Nat.zero_add, buildTree_top H e cur htop]
    rfl
  | succ d ih =>
    rw [Nat.add_right_comm]
    unfold buildTree at h ⊢
    simp only [Option.bind_eq_bind, Option.bind_eq_some_iff] at h ⊢
    obtain ⟨next, h1, rest, h2, h3⟩ := h
    have h3 := Option.some.inj h3
    subst h3
    have hne : rest ≠ [] := buildTree_ne_nil H _ _ _ _ h2
    rw [List.getLast?_cons_of_ne_nil hne] at ht
    exact ⟨next, h1, _, ih next layers.tail (by rw [List.length_tail]; omega) rest h2 ht, rfl⟩

theorem buildTree_none (H : Bytes → Bytes) (d e : Nat) (cur : List Node) (layers : List (List Node))
    (h : buildTree H d cur layers = none) : buildTree H (d + e) cur layers = none := by
  induction d generalizing cur layers with
  | zero => cases h
  | succ d ih =>
    rw [Nat.add_right_comm]
    unfold buildTree at h ⊢
    cases hp : parentLayer H (sortNodes (cur ++ layers.headD [])) with
    | none => simp only [hp]; rfl
    | some next =>
      simp only [hp, Option.bind_eq_bind, Option.bind_some] at h ⊢
      cases hb : buildTree H d next layers.tail with
      | none => rw [ih next layers.tail hb]; rfl
      | some rest => rw [hb] at h; cases h

theorem buildTree_pad (H : Bytes → Bytes) (d e : Nat) (cur : List Node) (layers : List (List Node)) :
    buildTree H d cur (layers ++ List.replicate e []) = buildTree H d cur layers := by
  induction d generalizing cur layers with
  | zero => rfl
  | succ d ih =>
    unfold buildTree
    cases layers with
    | nil =>
      cases e with
      | zero => rfl
      | succ e =>
        have := fun next => ih next ([] : List (List Node))
        simp only [List.nil_append] at this
        have hpad : ∀ (e : Nat) next, buildTree H d next (List.replicate e []) = buildTree H d next [] := by
          intro e
          clear this
          clear ih
          induction d generalizing e with
          | zero => intro next; rfl
          | succ d ihd =>
            intro next
            unfold buildTree
            cases e with
            | zero => rfl
            | succ e =>
              simp only [List.replicate_succ, List.headD_cons, List.tail_cons, List.headD_nil, List.tail_nil, ihd e]
        simp only [List.nil_append, List.replicate_succ, List.headD_cons, List.tail_cons, List.headD_nil,
          List.tail_nil, hpad]
    | cons l ls => simp only [List.cons_append, List.headD_cons, List.tail_cons, ih]

/-! ### the shape of the top layer -/

theorem dedupAdj_zeros (l : List Nat) (h : ∀ x ∈ l, x = 0) : dedupAdj l = [] ∨ dedupAdj l = [0] := by
  induction l with
  | nil => exact Or.inl rfl
  | cons x l ih =>
    have hx : x = 0 := h x (by simp)
    subst hx
    cases l with
    | nil => exact Or.inr rfl
    | cons y l =>
      have hy : y = 0 := h y (by simp)
      subst hy
      have := ih (fun z hz => h z (by simp [hz]))
      unfold dedupAdj
      rw [if_pos rfl]
      exact this

/-- The indices of a list of layers fit a tree with `m` nodes in its first layer (a missing last
sibling is allowed). -/
def LayersFit : Nat → List (List Node) → Prop
  | _, [] => True
  | m, l :: ls => (∀ x ∈ l, x.1 / 2 < (m + 1) / 2) ∧ LayersFit ((m + 1) / 2) ls

theorem mapM_fst {f : Nat × Nat → Option Node} (hf : ∀ q x, f q = some x → x.1 = q.1) (l : List (Nat × Nat))
    (r : List Node) (h : l.mapM f = some r) : r.map (·.1) = l.map (·.1) := by
  induction l generalizing r with
  | nil =>
    rw [List.mapM_nil] at h
    have := Option.some.inj h
    subst this
    rfl
  | cons q l ih =>
    rw [List.mapM_cons] at h
    simp only [Option.bind_eq_bind, Option.bind_eq_some_iff] at h
    obtain ⟨x, h1, rest, h2, h3⟩ := h
    have h3 := Option.some.inj h3
    subst h3
    rw [List.map_cons, List.map_cons, ih rest h2, hf q x h1]

theorem parentLayer_fst (H : Bytes → Bytes) (layer next : List Node) (h : parentLayer H layer = some next) :
    next.map (·.1) = parentIndices (layer.map (·.1)) := by
  unfold parentLayer at h
  simp only at h
  have := mapM_fst (by
    intro q x hx
    split at hx
    · have := Option.some.inj hx
      rw [← this]
    · cases hx) _ _ h
  rw [this]
  simp

theorem top_shape (H : Bytes → Bytes) (d m : Nat) (hlev : Levels (d + 1) m) (cur : List Node)
    (layers : List (List Node)) (hcur : ∀ x ∈ cur, x.1 / 2 < (m + 1) / 2) (hfit : LayersFit m layers)
    (T : List (List Node)) (h : buildTree H (d + 1) cur layers = some T) :
    ∃ top, T.getLast? = some top ∧ (top = [] ∨ ∃ r, top = [(0, r)]) := by
  induction d generalizing m cur layers T with
  | zero =>
    have h1 : (m + 1) / 2 = 1 := hlev
    unfold buildTree at h
    simp only [Option.bind_eq_bind, Option.bind_eq_some_iff] at h
    obtain ⟨next, hp, rest, hr, hT⟩ := h
    have hr : [next] = rest := Option.some.inj hr
    subst hr
    have hT := Option.some.inj hT
    subst hT
    refine ⟨next, rfl, ?_⟩
    have hfst := parentLayer_fst H _ _ hp
    have hz : ∀ x ∈ ((sortNodes (cur ++ layers.headD [])).map (·.1)).map (· / 2), x = 0 := by
      intro x hx
      rw [List.mem_map] at hx
      obtain ⟨y, hy, rfl⟩ := hx
      rw [List.mem_map] at hy
      obtain ⟨z, hz, rfl⟩ := hy
      have hz := (sortNodes_perm _).mem_iff.mp hz
      rcases List.mem_append.mp hz with hz | hz
      · have := hcur z hz; omega
      · cases layers with
        | nil => simp at hz
        | cons l ls => have := hfit.1 z hz; omega
    unfold parentIndices at hfst
    rcases dedupAdj_zeros _ hz with h0 | h0
    · left
      rw [h0] at hfst
      exact List.map_eq_nil_iff.mp hfst
    · right
      rw [h0] at hfst
      match next, hfst with
      | [(i, r)], hfst =>
        have : i = 0 := by simpa using hfst
        exact ⟨r, by rw [this]⟩
  | succ d ih =>
    unfold buildTree at h
    simp only [Option.bind_eq_bind, Option.bind_eq_some_iff] at h
    obtain ⟨next, hp, rest, hr, hT⟩ := h
    have hT := Option.some.inj hT
    subst hT
    have hfst := parentLayer_fst H _ _ hp
    have hnext : ∀ x ∈ next, x.1 / 2 < ((m + 1) / 2 + 1) / 2 := by
      intro x hx
      have hx1 : x.1 ∈ next.map (·.1) := List.mem_map_of_mem hx
      rw [hfst, mem_parentIndices] at hx1
      obtain ⟨k, hk, hkx⟩ := hx1
      rw [List.mem_map] at hk
      obtain ⟨z, hz, rfl⟩ := hk
      have hz := (sortNodes_perm _).mem_iff.mp hz
      rcases List.mem_append.mp hz with hz | hz
      · have := hcur z hz; omega
      · cases layers with
        | nil => simp at hz
        | cons l ls => have := hfit.1 z hz; omega
    have hfit' : LayersFit ((m + 1) / 2) layers.tail := by
      cases layers with
      | nil => trivial
      | cons l ls => exact hfit.2
    obtain ⟨top, h1, h2⟩ := ih ((m + 1) / 2) hlev next layers.tail hnext hfit' rest hr
    refine ⟨top, ?_, h2⟩
    have hne : rest ≠ [] := by rintro rfl; cases h1
    rw [List.getLast?_cons_of_ne_nil hne]
    exact h1

/-! ### the helper indices -/

theorem helperIndices_half {m k : Nat} {ks : List Nat} (hk : k ∈ helperIndices m ks) : ∃ j ∈ ks, k / 2 = j / 2 := by
  unfold helperIndices difference at hk
  simp only [List.mem_filter] at hk
  have hmem : k ∈ ks.map siblingIndex := by
    have h1 := hk.1
    split at h1
    · split at h1
      · split at h1
        · exact List.dropLast_subset _ h1
        · exact h1
      · exact h1
    · exact h1
  obtain ⟨j, hj, rfl⟩ := List.mem_map.mp hmem
  exact ⟨j, hj, siblingIndex_half j⟩

theorem helperIndices_top (ks : List Nat) (h : ks = [] ∨ ks = [0]) : helperIndices 1 ks = [] := by
  rcases h with rfl | rfl <;> decide

theorem parentIndices_lt {m : Nat} {ks : List Nat} (h : ∀ k ∈ ks, k < m) : ∀ k ∈ parentIndices ks, k < (m + 1) / 2 := by
  intro q hq
  obtain ⟨k, hk, rfl⟩ := (mem_parentIndices q ks).mp hq
  have := h k hk
  omega

theorem proofIndices_top (e : Nat) (ks : List Nat) (h : ks = [] ∨ ks = [0]) :
    proofIndicesByLayers e 1 ks = List.replicate e [] := by
  induction e with
  | zero => rfl
  | succ e ih =>
    unfold proofIndicesByLayers
    rw [helperIndices_top ks h, List.replicate_succ]
    have : parentIndices ks = ks := by rcases h with rfl | rfl <;> rfl
    rw [this]
    show [] :: proofIndicesByLayers e 1 ks = _
    rw [ih]

theorem proofIndices_more (d e m : Nat) (ks : List Nat) (hlev : Levels (d + 1) m) (hlt : ∀ k ∈ ks, k < m) :
    proofIndicesByLayers (d + 1 + e) m ks = proofIndicesByLayers (d + 1) m ks ++ List.replicate e [] := by
  induction d generalizing m ks with
  | zero =>
    have h1 : (m + 1) / 2 = 1 := hlev
    rw [Nat.zero_add, Nat.add_comm]
    unfold proofIndicesByLayers
    rw [h1]
    have hz : ∀ x ∈ ks.map (· / 2), x = 0 := by
      intro x hx
      obtain ⟨k, hk, rfl⟩ := List.mem_map.mp hx
      have := hlt k hk
      omega
    rw [proofIndices_top e (parentIndices ks) (dedupAdj_zeros _ hz)]
    rfl
  | succ d ih =>
    rw [Nat.add_right_comm (d + 1) 1 e]
    conv_lhs => unfold proofIndicesByLayers
    conv_rhs => unfold proofIndicesByLayers
    rw [ih ((m + 1) / 2) (parentIndices ks) hlev (parentIndices_lt hlt)]
    rfl

theorem groupHashes_pad (L : List (List Nat)) (e : Nat) (proof : List Bytes) :
    groupHashes (L ++ List.replicate e []) proof = (groupHashes L proof).map (· ++ List.replicate e []) := by
  induction L generalizing proof with
  | nil =>
    show groupHashes (List.replicate e []) proof = some (List.replicate e [])
    induction e generalizing proof with
    | zero => rfl
    | succ e ih =>
      rw [List.replicate_succ]
      unfold groupHashes
      rw [if_pos (by simp)]
      simp only [List.length_nil, List.drop_zero, ih]
      rfl
  | cons l L ih =>
    rw [List.cons_append]
    unfold groupHashes
    split
    · rw [ih]
      cases groupHashes L (proof.drop l.length) <;> rfl
    · rfl

theorem groupHashes_fit (d m : Nat) (ks : List Nat) (hlt : ∀ k ∈ ks, k < m) (proof : List Bytes)
    (L : List (List Node)) (h : groupHashes (proofIndicesByLayers d m ks) proof = some L) :
    L.length = d ∧ LayersFit m L := by
  induction d generalizing m ks proof L with
  | zero =>
    have h := Option.some.inj h
    subst h
    exact ⟨rfl, trivial⟩
  | succ d ih =>
    unfold proofIndicesByLayers groupHashes at h
    split at h
    · simp only [Option.bind_eq_bind, Option.bind_eq_some_iff] at h
      obtain ⟨more, h1, h2⟩ := h
      have h2 := Option.some.inj h2
      subst h2
      obtain ⟨e1, e2⟩ := ih _ _ (parentIndices_lt hlt) _ _ h1
      refine ⟨by simp [e1], ?_, e2⟩
      intro x hx
      have hx1 : x.1 ∈ helperIndices m ks := (List.of_mem_zip hx).1
      obtain ⟨j, hj, hxj⟩ := helperIndices_half hx1
      have := hlt j hj
      omega
    · cases h

/-! ### roots and proofs -/

theorem rootOfLayers_pad (T : List (List Node)) (top : List Node) (ht : T.getLast? = some top) (e : Nat) :
    rootOfLayers (T ++ List.replicate e top) = rootOfLayers T := by
  unfold rootOfLayers
  have : (T ++ List.replicate e top).getLast? = T.getLast? := by
    cases e with
    | zero => simp
    | succ e => rw [List.replicate_succ', ← List.append_assoc, List.getLast?_concat, ht]
  rw [this]

theorem proofRootAt_nil (depth : Nat → Nat) (H : Bytes → Bytes) (proof : List Bytes) (hashes : List Bytes)
    (total : Nat) : proofRootAt depth H proof [] hashes total = none := by
  unfold proofRootAt
  split
  · rfl
  · have hidx : ∀ d t, proofIndicesByLayers d t [] = List.replicate d [] := by
      intro d
      induction d with
      | zero => intro t; rfl
      | succ d ih =>
        intro t
        unfold proofIndicesByLayers
        have h1 : helperIndices t [] = [] := by unfold helperIndices difference; simp
        have h2 : parentIndices [] = [] := rfl
        rw [h1, h2, ih]
        rfl
    have hgr : ∀ d, groupHashes (List.replicate d []) proof = some (List.replicate d []) := by
      intro d
      have := groupHashes_pad [] d proof
      simpa [groupHashes] using this
    show ((groupHashes (proofIndicesByLayers (depth total) total ((sortNodes ([].zip hashes)).map (·.1))) proof).bind
      _) = none
    have hs : sortNodes (([] : List Nat).zip hashes) = [] := rfl
    rw [hs, List.map_nil, hidx, hgr, Option.bind_some]
    generalize depth total = d
    have hall : ∀ d, buildTree H d [] (List.replicate d []) = some ([] :: List.replicate d []) := by
      intro d
      have h1 := buildTree_pad H d d [] []
      rw [List.nil_append] at h1
      rw [h1, buildTree_top H d [] (Or.inl rfl)]
    cases d with
    | zero => rfl
    | succ d =>
      have h1 := hall (d + 1)
      rw [List.replicate_succ] at h1
      have h2 : sortNodes (([] : List Node) ++ []) = [] := rfl
      simp only [List.replicate_succ, h2, h1, Option.bind_eq_bind, Option.bind_some]
      exact rootOfLayers_pad [[]] [] rfl (d + 1)

theorem proofRootAt_eq (depth : Nat → Nat) (H : Bytes → Bytes) (proof : List Bytes) (indices : List Nat)
    (hashes : List Bytes) (total : Nat) (hd : treeDepth total ≤ depth total) (hlt : ∀ k ∈ indices, k < total) :
    proofRootAt depth H proof indices hashes total = proofRoot H proof indices hashes total := by
  by_cases hn : indices = []
  · subst hn
    rw [proofRootAt_nil]
    exact (proofRootAt_nil treeDepth H proof hashes total).symm
  have htot : 0 < total := by
    obtain ⟨k, l, rfl⟩ := List.exists_cons_of_ne_nil hn
    have := hlt k (by simp)
    omega
  unfold proofRootAt proofRoot
  by_cases hlen : indices.length ≠ hashes.length
  · rw [if_pos hlen, if_pos hlen]
  rw [if_neg hlen, if_neg hlen]
  simp only []
  obtain ⟨d, htd⟩ : ∃ d, treeDepth total = d + 1 := ⟨_, (Nat.succ_pred_eq_of_pos (treeDepth_pos htot)).symm⟩
  obtain ⟨e, he⟩ : ∃ e, depth total = d + 1 + e := ⟨depth total - (d + 1), by omega⟩
  have hlev : Levels (d + 1) total := by rw [← htd]; exact levels_treeDepth htot
  set leaves := sortNodes (indices.zip hashes) with hleaves
  have hsub : ∀ x ∈ leaves, x.1 < total := by
    intro x hx
    have hx := (sortNodes_perm _).mem_iff.mp hx
    exact hlt _ (List.of_mem_zip hx).1
  have hsorted : ∀ k ∈ leaves.map (·.1), k < total := by
    intro k hk
    obtain ⟨x, hx, rfl⟩ := List.mem_map.mp hk
    exact hsub x hx
  rw [htd, he, proofIndices_more d e total _ hlev hsorted, groupHashes_pad]
  cases hg : groupHashes (proofIndicesByLayers (d + 1) total (leaves.map (·.1))) proof with
  | none => rfl
  | some L =>
    obtain ⟨hL, hfit⟩ := groupHashes_fit (d + 1) total _ hsorted proof L hg
    simp only [Option.map_some, Option.bind_eq_bind, Option.bind_some]
    match L, hL, hfit with
    | first :: rest, hL, hfit =>
      simp only [List.cons_append]
      rw [← List.cons_append, buildTree_pad]
      have hfit' : LayersFit total (sortNodes (first ++ leaves) :: rest) := by
        refine ⟨fun x hx => ?_, hfit.2⟩
        have hx := (sortNodes_perm _).mem_iff.mp hx
        rcases List.mem_append.mp hx with hx | hx
        · exact hfit.1 x hx
        · have := hsub x hx; omega
      have hlen' : (sortNodes (first ++ leaves) :: rest).length ≤ d + 1 := by
        simp only [List.length_cons] at hL ⊢
        omega
      cases hb : buildTree H (d + 1) [] (sortNodes (first ++ leaves) :: rest) with
      | none => rw [buildTree_none H _ e _ _ hb]
      | some T =>
        obtain ⟨top, ht1, ht2⟩ := top_shape H d total hlev [] _ (by simp) hfit' T hb
        rw [buildTree_more H (d + 1) e [] _ hlen' T hb top ht1 ht2, Option.bind_some, Option.bind_some,
          rootOfLayers_pad T top ht1]

theorem helperNodes_append (L M : List (List Node)) (ks : List Nat) :
    helperNodes (L ++ M) ks = helperNodes L ks ++ helperNodes M (parentIndices^[L.length] ks) := by
  induction L generalizing ks with
  | nil => rfl
  | cons l L ih =>
    rw [List.cons_append, helperNodes, helperNodes, ih, List.cons_append, List.length_cons,
      Function.iterate_succ_apply]

theorem parents_iterate {d m : Nat} (hlev : Levels d m) {ks : List Nat} (hlt : ∀ k ∈ ks, k < m) :
    ∀ k ∈ parentIndices^[d] ks, k = 0 := by
  induction d generalizing m ks with
  | zero =>
    have h1 : m = 1 := hlev
    intro k hk
    have := hlt k hk
    omega
  | succ d ih =>
    rw [Function.iterate_succ_apply]
    exact ih hlev (parentIndices_lt hlt)

theorem helperNodes_top (e : Nat) (r : Bytes) (ks : List Nat) (h : ∀ k ∈ ks, k = 0) :
    (helperNodes (List.replicate e [(0, r)]) ks).flatten = [] := by
  induction e generalizing ks with
  | zero => rfl
  | succ e ih =>
    rw [List.replicate_succ, helperNodes, List.flatten_cons]
    have h1 : ∀ k ∈ parentIndices ks, k = 0 := by
      intro q hq
      obtain ⟨k, hk, rfl⟩ := (mem_parentIndices q ks).mp hq
      rw [h k hk]
    rw [ih _ h1, List.append_nil]
    rw [List.filterMap_eq_nil_iff]
    intro i hi
    unfold difference at hi
    have hi := (List.mem_filter.mp hi).1
    obtain ⟨k, hk, rfl⟩ := List.mem_map.mp hi
    rw [h k hk]
    rfl

/-- The tree with more levels is the tree with the top repeated. -/
theorem merkleFromLeavesAt_eq (depth : Nat → Nat) (H : Bytes → Bytes) {leaves : List Bytes} (hn : leaves ≠ [])
    (hd : treeDepth leaves.length ≤ depth leaves.length) :
    ∃ r, (merkleFromLeaves H leaves).root = some r ∧ (merkleFromLeaves H leaves).layers.length = treeDepth leaves.length + 1 ∧
      (merkleFromLeavesAt depth H leaves).layers = (merkleFromLeaves H leaves).layers ++
        List.replicate (depth leaves.length - treeDepth leaves.length) [(0, r)] := by
  have hpos : 0 < leaves.length := List.length_pos_of_ne_nil hn
  obtain ⟨h1, h2⟩ := merkleFromLeaves_eq H hn
  obtain ⟨d, htd⟩ : ∃ d, treeDepth leaves.length = d + 1 := ⟨_, (Nat.succ_pred_eq_of_pos (treeDepth_pos hpos)).symm⟩
  obtain ⟨e, he⟩ : ∃ e, depth leaves.length = d + 1 + e := ⟨depth leaves.length - (d + 1), by omega⟩
  have hlev : Levels (d + 1) leaves.length := by rw [← htd]; exact levels_treeDepth hpos
  have hlay : (merkleFromLeaves H leaves).layers.length = d + 1 + 1 := by
    rw [h1, htd]
    have : ∀ d m (t : Nat → Bytes), (fullLayers H d m t).length = d + 1 := by
      intro d
      induction d with
      | zero => intro m t; rfl
      | succ d ih => intro m t; rw [fullLayers, List.length_cons, ih]
    exact this _ _ _
  refine ⟨_, h2, by rw [htd]; exact hlay, ?_⟩
  have hb : buildTree H (d + 1) [] [enumNodes leaves] = some (merkleFromLeaves H leaves).layers := by
    unfold merkleFromLeaves
    rw [if_neg hn, htd]
    cases hb : buildTree H (d + 1) [] [enumNodes leaves] with
    | some T => rfl
    | none =>
      exfalso
      unfold merkleFromLeaves at hlay
      rw [if_neg hn, htd, hb] at hlay
      simp at hlay
  have hfit : LayersFit leaves.length [enumNodes leaves] := by
    refine ⟨fun x hx => ?_, trivial⟩
    rw [enumNodes_eq] at hx
    unfold nodesOf at hx
    obtain ⟨k, hk, rfl⟩ := List.mem_map.mp hx
    have := List.mem_range.mp hk
    show k / 2 < _
    omega
  obtain ⟨top, ht1, ht2⟩ := top_shape H d leaves.length hlev [] _ (by simp) hfit _ hb
  have hmore := buildTree_more H (d + 1) e [] [enumNodes leaves] (by simp) _ hb top ht1 ht2
  have hroot : top = [(0, topValue H (treeDepth leaves.length) leaves.length (fun k => leaves[k]?.getD []))] := by
    unfold MerkleTree.root rootOfLayers at h2
    rw [ht1] at h2
    rcases ht2 with rfl | ⟨r, rfl⟩
    · cases h2
    · have h2 : some r = some _ := h2
      rw [Option.some.inj h2]
  conv_lhs => unfold merkleFromLeavesAt
  rw [if_neg hn, he, hmore, hroot, htd]
  simp only [Option.getD_some, Nat.add_sub_cancel_left]

theorem merkleRootAt_eq (depth : Nat → Nat) (H : Bytes → Bytes) (leaves : List Bytes)
    (hd : leaves ≠ [] → treeDepth leaves.length ≤ depth leaves.length) :
    (merkleFromLeavesAt depth H leaves).root = (merkleFromLeaves H leaves).root := by
  by_cases hn : leaves = []
  · subst hn; rfl
  · obtain ⟨r, h1, h2, h3⟩ := merkleFromLeavesAt_eq depth H hn (hd hn)
    have hpos : 0 < leaves.length := List.length_pos_of_ne_nil hn
    have hlay := (merkleFromLeaves_eq H hn).1
    unfold MerkleTree.root at h1 ⊢
    rw [h3]
    have ht : (merkleFromLeaves H leaves).layers.getLast? = some [(0, r)] := by
      rw [hlay] at h1 ⊢
      have key : ∀ d m (t : Nat → Bytes), Levels d m →
          (fullLayers H d m t).getLast? = some [(0, topValue H d m t)] := by
        intro d
        induction d with
        | zero =>
          intro m t hm
          have hm : m = 1 := hm
          subst hm
          rfl
        | succ d ih =>
          intro m t hm
          rw [fullLayers, List.getLast?_cons_of_ne_nil (fullLayers_ne_nil _ _ _ _)]
          exact ih _ _ hm
      have hlev := levels_treeDepth hpos
      rw [rootOfLayers_full H _ _ _ hlev] at h1
      rw [key _ _ _ hlev, Option.some.inj h1]
    exact rootOfLayers_pad _ _ ht _

theorem merkleProofAt_eq (depth : Nat → Nat) (H : Bytes → Bytes) {leaves : List Bytes} (hn : leaves ≠ [])
    (hd : treeDepth leaves.length ≤ depth leaves.length) (indices : List Nat) (hlt : ∀ k ∈ indices, k < leaves.length) :
    (merkleFromLeavesAt depth H leaves).proof indices = (merkleFromLeaves H leaves).proof indices := by
  obtain ⟨r, h1, h2, h3⟩ := merkleFromLeavesAt_eq depth H hn hd
  have hpos : 0 < leaves.length := List.length_pos_of_ne_nil hn
  unfold MerkleTree.proof
  rw [h3, helperNodes_append, List.flatten_append, h2, helperNodes_top, List.append_nil]
  exact parents_iterate (levels_more (levels_treeDepth hpos) 1) hlt

/-! ### C111 -/

/-- Building a tree: for every depth that is at least the logarithm, the same leaves and the same root
come out, the same panics, and the proof made for any positions is the same; so only the stored tree
differs, which no caller looks into. -/
theorem C111_tree (depth : Nat → Nat) (hd : ∀ n, 0 < n → treeDepth n ≤ depth n) (H : Bytes → Bytes) (values : List Bytes) :
    (values = [] → generateMerkleTreeFromData H values = .error .unwrap ∧
      generateMerkleTreeFromDataAt depth H values = .error .unwrap) ∧
    (values ≠ [] → ∃ leaves tree tree' root, generateMerkleTreeFromData H values = .ok (leaves, tree, root) ∧
      generateMerkleTreeFromDataAt depth H values = .ok (leaves, tree', root) ∧
      ∀ indices : List Nat, (∀ k ∈ indices, k < values.length) →
        generateMerkleProof indices tree' = generateMerkleProof indices tree) := by
  refine ⟨fun h => by subst h; exact ⟨rfl, rfl⟩, fun hv => ?_⟩
  have hl : values.map H ≠ [] := by simpa using hv
  have hpos : 0 < (values.map H).length := List.length_pos_of_ne_nil hl
  have hroot := merkleRootAt_eq depth H (values.map H) (fun _ => hd _ hpos)
  obtain ⟨r, h1, -, -⟩ := merkleFromLeavesAt_eq depth H hl (hd _ hpos)
  refine ⟨values.map H, merkleFromLeaves H (values.map H), merkleFromLeavesAt depth H (values.map H), r, ?_, ?_, ?_⟩
  · unfold generateMerkleTreeFromData
    simp only [h1]
  · unfold generateMerkleTreeFromDataAt
    simp only [hroot, h1]
  · intro indices hlt
    unfold generateMerkleProof
    rw [merkleProofAt_eq depth H hl (hd _ hpos) indices (by simpa using hlt)]

/-- The same for the tree of a file. -/
theorem C111_file_tree (depth : Nat → Nat) (hd : ∀ n, 0 < n → treeDepth n ≤ depth n) (H : Bytes → Bytes) (file : Bytes)
    (dataLen leafLen : Nat) :
    (∀ e, generateMerkleTreeFromFile H file dataLen leafLen = .error e ↔
      generateMerkleTreeFromFileAt depth H file dataLen leafLen = .error e) ∧
    ∀ leaves tree root, generateMerkleTreeFromFile H file dataLen leafLen = .ok (leaves, tree, root) →
      ∃ tree', generateMerkleTreeFromFileAt depth H file dataLen leafLen = .ok (leaves, tree', root) ∧
        ∀ indices : List Nat, (∀ k ∈ indices, k < leaves.length) →
          generateMerkleProof indices tree' = generateMerkleProof indices tree := by
  unfold generateMerkleTreeFromFile generateMerkleTreeFromFileAt
  by_cases h0 : leafLen = 0
  · rw [if_pos h0, if_pos h0]
    exact ⟨fun e => Iff.rfl, fun _ _ _ h => by cases h⟩
  · rw [if_neg h0, if_neg h0]
    simp only []
    set leaves := ((stepBy dataLen 0 dataLen leafLen).map (fun i => readFile file (i + leafLen) leafLen)).map H
    have hroot := merkleRootAt_eq depth H leaves (fun hn => hd _ (List.length_pos_of_ne_nil hn))
    rw [hroot]
    cases hr : (merkleFromLeaves H leaves).root with
    | none => exact ⟨fun e => Iff.rfl, fun _ _ _ h => by cases h⟩
    | some r =>
      refine ⟨fun e => ⟨fun h => (by cases h), fun h => (by cases h)⟩, ?_⟩
      intro l t root h
      injection h with h
      injection h with h1 h
      injection h with h2 h3
      subst h1 h2 h3
      refine ⟨_, rfl, fun indices hlt => ?_⟩
      have hn : leaves ≠ [] := by
        intro h
        rw [h] at hr
        cases hr
      unfold generateMerkleProof
      rw [merkleProofAt_eq depth H hn (hd _ (List.length_pos_of_ne_nil hn)) indices hlt]

/-- Checking a proof: the verdict on every proof, root, list of positions and list of leaves whatsoever
is the same. -/
theorem C111_verify (depth : Nat → Nat) (hd : ∀ n, 0 < n → treeDepth n ≤ depth n) (H : Bytes → Bytes)
    (proof : List Bytes) (root : Bytes) (indices : List Nat) (leaves : List Bytes) :
    verifyMerkleProofAt depth H proof root indices leaves = verifyMerkleProof H proof root indices leaves := by
  unfold verifyMerkleProofAt verifyMerkleProof
  rw [collect_leaves]
  by_cases hall : ∀ k ∈ indices, k < leaves.length
  · rw [if_pos hall, bind_ok, bind_ok]
    have : proofVerifyAt depth H proof root indices (indices.map fun k => leaves[k]?.getD []) leaves.length =
        proofVerify H proof root indices (indices.map fun k => leaves[k]?.getD []) leaves.length := by
      unfold proofVerifyAt proofVerify
      by_cases hn : indices = []
      · subst hn
        rw [proofRootAt_nil]
        rw [show proofRoot H proof [] _ leaves.length = none from proofRootAt_nil treeDepth H proof _ _]
      · have hpos : 0 < leaves.length := by
          obtain ⟨k, l, rfl⟩ := List.exists_cons_of_ne_nil hn
          have := hall k (by simp)
          omega
        rw [proofRootAt_eq depth H proof indices _ leaves.length (hd _ hpos) hall]
        cases proofRoot H proof indices (indices.map fun k => leaves[k]?.getD []) leaves.length <;> rfl
    rw [this]
  · rw [if_neg hall]
    rfl

theorem topValue_first (H : Bytes → Bytes) (d m : Nat) (t t' : Nat → Bytes) (h : ∀ k < 2 ^ d, t k = t' k) :
    topValue H d m t = topValue H d m t' := by
  induction d generalizing m t t' with
  | zero => exact h 0 (by simp)
  | succ d ih =>
    unfold topValue
    apply ih
    intro q hq
    unfold up
    have h2 : 2 * q + 1 < 2 ^ (d + 1) := by rw [pow_succ]; omega
    rw [h (2 * q) (by omega), h (2 * q + 1) h2]

/-- The condition cannot be dropped: were the depth rounded down to some `d`, the root would be made of
the first `2^d` leaves alone, and all others could be exchanged freely. -/
theorem C111_rounded_down (depth : Nat → Nat) (H : Bytes → Bytes) (a b : List Bytes) (hlen : a.length = b.length)
    (ha : a ≠ []) (hpos : 0 < depth a.length) (hsame : a.take (2 ^ depth a.length) = b.take (2 ^ depth a.length)) :
    ∃ leaves leaves' tree tree' root, generateMerkleTreeFromDataAt depth H a = .ok (leaves, tree, root) ∧
      generateMerkleTreeFromDataAt depth H b = .ok (leaves', tree', root) := by
  have key : ∀ l : List Bytes, l ≠ [] → l.length = a.length →
      (merkleFromLeavesAt depth H (l.map H)).root =
        some (topValue H (depth a.length) a.length (fun k => (l.map H)[k]?.getD [])) := by
    intro l hl hla
    have hne : l.map H ≠ [] := by simpa using hl
    unfold MerkleTree.root merkleFromLeavesAt
    rw [if_neg hne, List.length_map, hla]
    obtain ⟨d, hd⟩ : ∃ d, depth a.length = d + 1 := ⟨_, (Nat.succ_pred_eq_of_pos hpos).symm⟩
    have h2 := buildTree_full H (d + 1) (l.map H).length (fun k => (l.map H)[k]?.getD [])
    have h3 : buildTree H (d + 1) [] [enumNodes (l.map H)] =
        some (fullLayers H (d + 1) (l.map H).length (fun k => (l.map H)[k]?.getD [])) := by
      rw [← h2]
      unfold buildTree
      simp only [List.headD_nil, List.append_nil, List.tail_nil, List.headD_cons, List.nil_append, List.tail_cons,
        enumNodes_eq]
    rw [hd, h3, Option.getD_some, List.length_map, hla]
    have hroot : ∀ d m (t : Nat → Bytes), 0 < m → rootOfLayers (fullLayers H d m t) = some (topValue H d m t) := by
      intro d
      induction d with
      | zero =>
        intro m t hm
        obtain ⟨m, rfl⟩ : ∃ k, m = k + 1 := ⟨m - 1, by omega⟩
        unfold fullLayers rootOfLayers nodesOf topValue
        rw [List.range_succ_eq_map]
        rfl
      | succ d ih =>
        intro m t hm
        have := ih ((m + 1) / 2) (up H m t) (by omega)
        unfold fullLayers
        unfold rootOfLayers at this ⊢
        rw [List.getLast?_cons_of_ne_nil (fullLayers_ne_nil _ _ _ _)]
        exact this
    exact hroot _ _ _ (List.length_pos_of_ne_nil ha)
  have hb : b ≠ [] := by
    intro h
    subst h
    exact ha (List.eq_nil_of_length_eq_zero hlen)
  have e1 := key a ha rfl
  have e2 := key b hb hlen.symm
  have e3 : topValue H (depth a.length) a.length (fun k => (b.map H)[k]?.getD []) =
      topValue H (depth a.length) a.length (fun k => (a.map H)[k]?.getD []) := by
    apply topValue_first
    intro k hk
    have h1 : (a.take (2 ^ depth a.length))[k]? = (b.take (2 ^ depth a.length))[k]? := by rw [hsame]
    rw [List.getElem?_take_of_lt hk, List.getElem?_take_of_lt hk] at h1
    simp only [List.getElem?_map, h1]
  rw [e3] at e2
  refine ⟨a.map H, b.map H, merkleFromLeavesAt depth H (a.map H), merkleFromLeavesAt depth H (b.map H),
    topValue H (depth a.length) a.length (fun k => (a.map H)[k]?.getD []), ?_, ?_⟩
  · unfold generateMerkleTreeFromDataAt
    simp only [e1]
  · unfold generateMerkleTreeFromDataAt
    simp only [e2]

/-- Four leaves in a library whose logarithm is slightly too large at powers of two, and so returns
three: one layer more in the tree, the same root, a proof of the same two hashes, accepted.  Rounded
down to one level, the last two leaves do not matter. -/
example : (match generateMerkleTreeFromDataAt (fun _ => 3) toyHash [[1], [2], [3], [4]],
      generateMerkleTreeFromData toyHash [[1], [2], [3], [4]] with
    | .ok (leaves, tree, root), .ok (_, tree', root') => (match generateMerkleProof [1] tree with
      | .ok proof => decide (tree.layers.length = 4 ∧ tree'.layers.length = 3 ∧ root = root' ∧ proof.length = 2 ∧
          verifyMerkleProofAt (fun _ => 3) toyHash proof root [1] leaves = .ok ())
      | .error _ => false)
    | _, _ => false) = true ∧
    (match generateMerkleTreeFromDataAt (fun _ => 1) toyHash [[1], [2], [3], [4]],
      generateMerkleTreeFromDataAt (fun _ => 1) toyHash [[1], [2], [5], [6]] with
    | .ok (_, _, root), .ok (_, _, root') => decide (root = root')
    | _, _ => false) = true := by decide +kernel

end PoS
