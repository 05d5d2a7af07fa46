import Verif.Properties.Postorage
import Verif.Properties.Merkle

/-
What an accepted protocol run guarantees: C67 (thread limit), C68 (first response), C69 (the final
comparison of the pipeline), C70 (`merkle_tree_proof`).
-/

namespace PoS

/-! ### C67: the thread pool -/

theorem filter_set_length {α : Type} (q : α → Bool) (l : List α) (i : Nat) (x : α) :
    ((l.set i x).filter q).length ≤ (l.filter q).length + 1 := by
  induction l generalizing i with
  | nil => simp
  | cons a l ih =>
    cases i with
    | zero =>
      rw [List.set_cons_zero]
      cases hx : q x <;> cases ha : q a <;> simp only [List.filter_cons, hx, ha, if_true, List.length_cons, reduceIte,
        Bool.false_eq_true] <;> omega
    | succ i =>
      rw [List.set_cons_succ]
      have := ih i
      cases ha : q a <;> simp [ha] <;> omega

theorem filter_set_length' {α : Type} (q : α → Bool) (l : List α) (i : Nat) (x y : α) (h : l[i]? = some y)
    (hxy : q x = true → q y = true) : ((l.set i x).filter q).length ≤ (l.filter q).length := by
  induction l generalizing i with
  | nil => simp
  | cons a l ih =>
    cases i with
    | zero =>
      rw [List.getElem?_cons_zero] at h
      have h := Option.some.inj h
      subst h
      rw [List.set_cons_zero]
      cases hx : q x <;> cases ha : q a <;> simp only [List.filter_cons, hx, ha, if_true, List.length_cons, reduceIte,
        Bool.false_eq_true] <;> try omega
      rw [ha] at hxy
      exact absurd (hxy hx) (by simp)
    | succ i =>
      rw [List.getElem?_cons_succ] at h
      rw [List.set_cons_succ]
      have := ih i h
      cases ha : q a <;> simp [ha] <;> omega

theorem parStep_busy {e : ParEnv} {workers i : Nat} {st st' : PState} (h : parStep e workers i st = some st')
    (hb : (st.phase.filter Phase.busy).length ≤ workers) : (st'.phase.filter Phase.busy).length ≤ workers := by
  unfold parStep at h
  split at h
  · cases h
  · next hph =>
    split at h
    · next hlt =>
      split at h
      · cases h
        exact le_trans (filter_set_length _ _ _ _) (by simpa using hlt)
      · cases h
        exact le_trans (filter_set_length _ _ _ _) (by simpa using hlt)
    · cases h
  · next idx2 cur r j hph =>
    have key : ∀ ph : Phase, ((st.phase.set i ph).filter Phase.busy).length ≤ workers := fun ph =>
      le_trans (filter_set_length' _ _ _ _ _ hph (fun _ => rfl)) hb
    split at h
    · split at h
      · split at h <;> · cases h; exact key _
      · cases h; exact key _
    · cases h; exact key _
  · cases h
  · cases h

/-- At every point of every schedule at most `workers` tasks are being worked on. -/
theorem C67_thread_limit (e : ParEnv) (workers : Nat) (blocks : List (List Bytes)) (sched : List Nat) (st : PState)
    (h : parRun e workers sched ⟨blocks, List.replicate blocks.length .waiting⟩ = some st) :
    (st.phase.filter Phase.busy).length ≤ workers := by
  have key : ∀ (sched : List Nat) (s : PState), (s.phase.filter Phase.busy).length ≤ workers →
      parRun e workers sched s = some st → (st.phase.filter Phase.busy).length ≤ workers := by
    intro sched
    induction sched with
    | nil => intro s hs hr; cases hr; exact hs
    | cons i is ih =>
      intro s hs hr
      unfold parRun at hr
      split at hr
      · next s' hs' => exact ih s' (parStep_busy hs' hs) hr
      · cases hr
  refine key sched _ ?_ h
  have : (List.replicate blocks.length Phase.waiting).filter Phase.busy = [] := by
    rw [List.filter_eq_nil_iff]
    intro a ha
    rw [List.eq_of_mem_replicate ha]
    simp [Phase.busy]
  simp [this]

/-- The limit is reached: as many tasks as there are threads (or tasks) can be under way at once. -/
theorem C67_limit_reached (e : ParEnv) (workers : Nat) (blocks : List (List Bytes))
    (hidx : blocks.length ≤ e.blocksIdx.length) :
    ∃ sched st, parRun e workers sched ⟨blocks, List.replicate blocks.length .waiting⟩ = some st ∧
      (st.phase.filter Phase.busy).length = min workers blocks.length := by
  have happ : ∀ (s t : List Nat) (a b : PState), parRun e workers s a = some b →
      parRun e workers (s ++ t) a = parRun e workers t b := by
    intro s
    induction s with
    | nil => intro t a b h; cases h; rfl
    | cons i is ih =>
      intro t a b h
      rw [List.cons_append]
      rw [parRun] at h ⊢
      split at h
      · next s' hs' => exact ih t s' b h
      · cases h
  have key : ∀ m, m ≤ min workers blocks.length → ∃ st, parRun e workers (List.range m)
      ⟨blocks, List.replicate blocks.length .waiting⟩ = some st ∧ st.blocks = blocks ∧
      ∃ busy : List Phase, busy.length = m ∧ (∀ x ∈ busy, x.busy = true) ∧
        st.phase = busy ++ List.replicate (blocks.length - m) .waiting := by
    intro m
    induction m with
    | zero => intro _; exact ⟨_, rfl, rfl, [], rfl, by simp, by simp⟩
    | succ m ih =>
      intro hm
      obtain ⟨st, h1, h2, busy, h3, h4, h5⟩ := ih (by omega)
      have hmb : m < blocks.length := by omega
      have hph : st.phase[m]? = some .waiting := by
        rw [h5, List.getElem?_append_right (by omega), h3, Nat.sub_self, List.getElem?_replicate]
        simp; omega
      have hcnt : (st.phase.filter Phase.busy).length = m := by
        have hw : (List.replicate (blocks.length - m) Phase.waiting).filter Phase.busy = [] := by
          rw [List.filter_eq_nil_iff]
          intro a ha
          rw [List.eq_of_mem_replicate ha]; simp [Phase.busy]
        rw [h5, List.filter_append, hw, List.append_nil, List.filter_eq_self.mpr h4, h3]
      refine ⟨{ st with phase := st.phase.set m (.working (e.blocksIdx[m]'(by omega)) (blocks[m]'hmb) 0 0) }, ?_, h2,
        busy ++ [.working (e.blocksIdx[m]'(by omega)) (blocks[m]'hmb) 0 0], by simp [h3], ?_, ?_⟩
      · rw [List.range_succ, happ _ _ _ _ h1]
        unfold parRun parStep
        simp only [hph]
        rw [if_pos (by omega)]
        simp only [at!_of_lt (show m < e.blocksIdx.length by omega), h2, at!_of_lt hmb, bind_ok]
        rfl
      · intro x hx
        rcases List.mem_append.mp hx with hx | hx
        · exact h4 x hx
        · rw [List.mem_singleton.mp hx]; rfl
      · simp only [h5]
        rw [List.set_append_right _ _ (by omega), h3, Nat.sub_self,
          show blocks.length - m = (blocks.length - (m + 1)) + 1 by omega, List.replicate_succ, List.set_cons_zero,
          List.append_assoc]
        rfl
  obtain ⟨st, h1, -, busy, h3, h4, h5⟩ := key _ (Nat.le_refl _)
  refine ⟨_, st, h1, ?_⟩
  have hw : (List.replicate (blocks.length - min workers blocks.length) Phase.waiting).filter Phase.busy = [] := by
    rw [List.filter_eq_nil_iff]
    intro a ha
    rw [List.eq_of_mem_replicate ha]; simp [Phase.busy]
  rw [h5, List.filter_append, hw, List.append_nil, List.filter_eq_self.mpr h4, h3]

/-- Two threads, three tasks: the third cannot start before one of the others has finished. -/
example : let e : ParEnv := ⟨toyHash, toyParams 3 1 0 0 1 1 1, 7, [], [], [0, 1, 2], [], []⟩
    let s : PState := ⟨[[[1]], [[2]], [[3]]], List.replicate 3 .waiting⟩
    (parRun e 2 [0, 1] s).isSome = true ∧ parRun e 2 [0, 1, 2] s = none := by decide +kernel

/-! ### C68: the first response -/

/-- A round only gets past its first check when the response hash is the hash of the nonce followed
by the submitted blocks. -/
theorem C68_hash_checked (H Hs : Bytes → Bytes) (params : PosPara) (origin pubdata : Bytes) (leaves : List Bytes)
    (root : Bytes) (r : UInt8) (indices : List Nat) (resp : Response) (parallelNum : Nat) (sched : List Nat)
    (o : Option Unit)
    (h : verifierCheck H Hs params origin pubdata leaves root r indices resp parallelNum sched = .ok o) :
    resp.hash = H (r :: (resp.blocks.map List.flatten).flatten) := by
  unfold verifierCheck at h
  simp only [] at h
  by_cases he : resp.hash = H (responseBytes r resp.blocks)
  · exact he
  · rw [if_pos he] at h; cases h

theorem flatten_inj_shape {α : Type} : ∀ (a b : List (List α)), a.map List.length = b.map List.length →
    a.flatten = b.flatten → a = b := by
  intro a
  induction a with
  | nil => intro b h _; cases b with
    | nil => rfl
    | cons => simp at h
  | cons x a ih =>
    intro b h hf
    cases b with
    | nil => simp at h
    | cons y b =>
      simp only [List.map_cons, List.cons.injEq] at h
      simp only [List.flatten_cons] at hf
      obtain ⟨e1, e2⟩ := List.append_inj hf h.1
      rw [e1, ih b h.2 e2]

/-- When a response hash is accepted in two rounds, the nonce and (for blocks of the same shape) all
submitted blocks are the same, unless the two byte strings "nonce, then blocks" of the rounds are
themselves a hash collision: the first response cannot be prepared before the nonce is known, and the
blocks cannot be exchanged after it was sent. -/
theorem C68_hash_binds (H Hs : Bytes → Bytes) (params : PosPara) (origin pubdata pubdata' : Bytes)
    (leaves leaves' : List Bytes) (root root' : Bytes) (r r' : UInt8) (indices indices' : List Nat)
    (resp resp' : Response) (par par' : Nat) (sched sched' : List Nat) (o o' : Option Unit)
    (h : verifierCheck H Hs params origin pubdata leaves root r indices resp par sched = .ok o)
    (h' : verifierCheck H Hs params origin pubdata' leaves' root' r' indices' resp' par' sched' = .ok o')
    (hh : resp.hash = resp'.hash) :
    (r :: (resp.blocks.map List.flatten).flatten ≠ r' :: (resp'.blocks.map List.flatten).flatten ∧
        H (r :: (resp.blocks.map List.flatten).flatten) = H (r' :: (resp'.blocks.map List.flatten).flatten)) ∨
      (r = r' ∧ (resp.blocks.map List.flatten).flatten = (resp'.blocks.map List.flatten).flatten ∧
        (resp.blocks.map (fun b => b.map List.length) = resp'.blocks.map (fun b => b.map List.length) →
          resp.blocks = resp'.blocks)) := by
  have e1 := C68_hash_checked H Hs params origin pubdata leaves root r indices resp par sched o h
  have e2 := C68_hash_checked H Hs params origin pubdata' leaves' root' r' indices' resp' par' sched' o' h'
  by_cases he : r :: (resp.blocks.map List.flatten).flatten = r' :: (resp'.blocks.map List.flatten).flatten
  · right
    obtain ⟨h1, h2⟩ := List.cons.inj he
    refine ⟨h1, h2, fun hs => ?_⟩
    have hlen : (resp.blocks.map List.flatten).map List.length = (resp'.blocks.map List.flatten).map List.length := by
      have : ∀ l : List (List Bytes), (l.map List.flatten).map List.length =
          (l.map (fun b => b.map List.length)).map List.sum := by
        intro l
        rw [List.map_map, List.map_map]
        apply List.map_congr_left
        intro b _
        simp [List.length_flatten]
      rw [this, this, hs]
    have h3 := flatten_inj_shape _ _ hlen h2
    apply List.ext_getElem
    · simpa using congrArg List.length h3
    · intro i hi hi'
      apply flatten_inj_shape
      · have := congrArg (fun l : List (List Nat) => l[i]?) hs
        simpa [hi, hi'] using this
      · have := congrArg (fun l : List Bytes => l[i]?) h3
        simpa [hi, hi'] using this
  · left
    exact ⟨he, by rw [← e1, ← e2, hh]⟩

/-- The hash an honest prover sends covers the nonce and the challenged blocks of the sealed file, in
order, and nothing else. -/
theorem C68_prover_hash (H : Bytes → Bytes) (params : PosPara) (p n c : Nat) (cfg : Config params p n c)
    (sealed : Bytes) (tree : MerkleTree) (r : UInt8) (indices : List Nat) (resp : Response)
    (h : proverRespond H params sealed tree r indices = .ok resp) :
    resp.hash = H (r :: (indices.map fun k => readFile sealed (k * params.blockPl) params.blockPl).flatten) ∧
    resp.blocks.map List.flatten = indices.map fun k => readFile sealed (k * params.blockPl) params.blockPl := by
  unfold proverRespond at h
  rw [bind_eq_ok] at h
  obtain ⟨s, h1, h2⟩ := h
  rw [bind_eq_ok] at h2
  obtain ⟨proof, -, h3⟩ := h2
  have key : ∀ (l : List Nat) (a b : Bytes × List (List Bytes) × List Bytes × List (List (List Bytes))),
      forEach l (fun idx2 (s : Bytes × List (List Bytes) × List Bytes × List (List (List Bytes))) => do
        let pr ← singleUnsealPrepare H params sealed idx2
        pure (s.1 ++ pr.block.flatten, s.2.1 ++ [pr.block], s.2.2.1 ++ [pr.beforeId], s.2.2.2 ++ [pr.dependBlocks])) a = .ok b →
      b.1 = a.1 ++ (l.map fun k => readFile sealed (k * params.blockPl) params.blockPl).flatten ∧
      b.2.1.map List.flatten = a.2.1.map List.flatten ++
        l.map fun k => readFile sealed (k * params.blockPl) params.blockPl := by
    intro l
    induction l with
    | nil => intro a b hb; rw [forEach_nil] at hb; cases hb; simp
    | cons k l ih =>
      intro a b hb
      rw [forEach_cons, bind_eq_ok] at hb
      obtain ⟨s, hs, hb⟩ := hb
      rw [bind_eq_ok] at hs
      obtain ⟨pr, hpr, hs⟩ := hs
      have hpb : pr.block.flatten = readFile sealed (k * params.blockPl) params.blockPl := by
        obtain ⟨us, u1, -, -, u4⟩ := toUnits_ok (readFile sealed (k * params.blockPl) params.blockPl) params.unitPl c
          cfg.layout.unit_pos (by rw [readFile_length, cfg.layout.block])
        unfold singleUnsealPrepare at hpr
        simp only [] at hpr
        rw [u1, bind_ok, bind_eq_ok] at hpr
        obtain ⟨_, -, hpr⟩ := hpr
        rw [bind_eq_ok] at hpr
        obtain ⟨_, -, hpr⟩ := hpr
        rw [bind_eq_ok] at hpr
        obtain ⟨_, -, hpr⟩ := hpr
        cases hpr
        exact u4
      cases hs
      obtain ⟨g1, g2⟩ := ih _ _ hb
      rw [g1, g2, hpb]
      simp [hpb]
  obtain ⟨g1, g2⟩ := key indices _ _ h1
  cases h3
  simp only [g1, g2]
  simp

/-- The honest response passes with its own nonce and fails with another one. -/
example : (match copyAndPad (toyFile 189) 189 63 with
    | .ok padded => (match sealFile toyHash (toyParams 3 1 0 0 1 1 1) padded P_512 [1, 2, 3] with
      | .ok st => (match generateMerkleTreeFromData toyHash st.ids with
        | .ok (leaves, tree, root) =>
          (match proverRespond toyHash (toyParams 3 1 0 0 1 1 1) st.file tree 7 [0, 2] with
          | .ok resp =>
            decide (verifierCheck toyHash toyHash (toyParams 3 1 0 0 1 1 1) (toyFile 189)
                (saveData (zeros 300) P_512 [1, 2, 3]) leaves root 7 [0, 2] resp 0 [] = .ok (some ())
              ∧ verifierCheck toyHash toyHash (toyParams 3 1 0 0 1 1 1) (toyFile 189)
                (saveData (zeros 300) P_512 [1, 2, 3]) leaves root 8 [0, 2] resp 0 [] = .error .assertion)
          | .error _ => false)
        | .error _ => false)
      | .error _ => false)
    | .error _ => false) = true := by decide +kernel

/-! ### C69: the final comparison -/

/-- A pipeline run that ends normally has sealed and unsealed the file; the Merkle trees of the original
and of what came back have the same root, and the two files agree from the second block on unless two
different strings hashed for these two trees have the same hash. -/
theorem C69_pipeline_accepted (H Hs : Bytes → Bytes) (hHs : ∀ x, (Hs x).length = 32) (params : PosPara)
    (origin old : Bytes) (rng : Nat → UInt8) (count parallelNum : Nat) (choices : List RoundChoices)
    (h : pipeline H Hs params origin old rng count parallelNum choices = .ok (some ())) :
    ∃ padded st plain unsealed l tree l' tree' root, copyAndPad origin params.dataL params.unitL = .ok padded ∧
      sealFile H params padded (prepareKey params.unitPl) ((List.range 128).map rng) = .ok st ∧
      unsealFile H params st.file (prepareKey params.unitPl) ((List.range 128).map rng) = .ok plain ∧
      copyAndCompress plain params.dataL params.unitL params.unitPl = .ok unsealed ∧
      generateMerkleTreeFromFile Hs unsealed params.dataL params.blockL = .ok (l, tree, root) ∧
      generateMerkleTreeFromFile Hs origin params.dataL params.blockL = .ok (l', tree', root) ∧
      (Collides Hs (innerStrings tree.layers) (innerStrings tree'.layers) ∨
        Collides Hs (leafContents unsealed params.dataL params.blockL)
          (leafContents origin params.dataL params.blockL) ∨
        ∀ x, params.blockL ≤ x → x < params.dataL → unsealed[x]?.getD 0 = origin[x]?.getD 0) := by
  unfold pipeline at h
  rw [bind_eq_ok] at h
  obtain ⟨o, ho, h⟩ := h
  rw [bind_eq_ok] at h
  obtain ⟨padded, hp, h⟩ := h
  simp only [] at h
  rw [bind_eq_ok] at h
  obtain ⟨st, hst, h⟩ := h
  rw [bind_eq_ok] at h
  obtain ⟨t, -, h⟩ := h
  rw [bind_eq_ok] at h
  obtain ⟨a, -, h⟩ := h
  cases a with
  | none => cases h
  | some a =>
    simp only [] at h
    rw [bind_eq_ok] at h
    obtain ⟨plain, hpl, h⟩ := h
    rw [bind_eq_ok] at h
    obtain ⟨unsealed, hun, h⟩ := h
    rw [bind_eq_ok] at h
    obtain ⟨u, hu, h⟩ := h
    by_cases hr : o.2.2 = u.2.2
    · obtain ⟨l, tr, root⟩ := o
      obtain ⟨l', tr', root'⟩ := u
      simp only at hr
      subst hr
      refine ⟨padded, st, plain, unsealed, l', tr', l, tr, root, hp, hst, hpl, hun, hu, ho, ?_⟩
      rcases C30_equal_roots Hs hHs unsealed origin params.dataL params.blockL _ _ _ _ _ hu ho with hc | hc | hc
      · exact Or.inl hc
      · exact Or.inr (Or.inl hc)
      · refine Or.inr (Or.inr ?_)
        intro x h1 h2
        refine hc x h1 (lt_of_lt_of_le h2 ?_)
        have hb : 0 < params.blockL := by
          rcases Nat.eq_zero_or_pos params.blockL with h0 | h0
          · rw [h0] at ho; unfold generateMerkleTreeFromFile at ho; rw [if_pos rfl] at ho; cases ho
          · exact h0
        have := Nat.div_add_mod' (params.dataL + params.blockL - 1) params.blockL
        have hm := Nat.mod_lt (params.dataL + params.blockL - 1) hb
        rw [Nat.add_mul, Nat.one_mul]
        omega
    · rw [if_neg hr] at h; cases h

/-- A complete small run: three blocks, one round with two challenges. -/
example : pipeline toyHash toyHash (toyParams 3 1 0 0 1 1 1) (toyFile 189) [] (fun i => UInt8.ofNat (i + 1)) 2 0
    [⟨7, fun i => 2 * i % 3, 4, []⟩] = .ok (some ()) := by decide +kernel

/-! ### C70: `merkle_tree_proof` -/

theorem fileTree_eq_dataTree (H : Bytes → Bytes) (file : Bytes) (dataLen leafLen : Nat) (hl : 0 < leafLen) :
    generateMerkleTreeFromFile H file dataLen leafLen = generateMerkleTreeFromData H
      ((List.range ((dataLen + leafLen - 1) / leafLen)).map (fun i => readFile file ((i + 1) * leafLen) leafLen)) := by
  have hs := stepBy_eq hl dataLen 0 dataLen (by omega)
  unfold generateMerkleTreeFromFile generateMerkleTreeFromData
  rw [if_neg (by omega)]
  have e : (stepBy dataLen 0 dataLen leafLen).map (fun i => readFile file (i + leafLen) leafLen) =
      (List.range ((dataLen + leafLen - 1) / leafLen)).map (fun i => readFile file ((i + 1) * leafLen) leafLen) := by
    rw [hs, List.map_map]
    apply List.map_congr_left
    intro i hi
    simp only [Function.comp]
    congr 1
    ring
  rw [e]

theorem chunks32_all (fuel : Nat) (b : Bytes) (h : b.length % 32 = 0) : ∀ x ∈ chunks32 fuel b, x.length = 32 := by
  induction fuel generalizing b with
  | zero => intro x hx; simp [chunks32] at hx
  | succ fuel ih =>
    intro x hx
    unfold chunks32 at hx
    split at hx
    · simp at hx
    · next hne =>
      have hpos : 0 < b.length := List.length_pos_of_ne_nil hne
      rcases List.mem_cons.mp hx with rfl | hx
      · rw [List.length_take]; omega
      · exact ih _ (by rw [List.length_drop]; omega) x hx

/-- The verdict is the comparison of the two roots: which leaves are challenged is irrelevant, because
the proof is made from, and checked against, the leaves of the retrieved file itself. -/
theorem C70_decides (Hs : Bytes → Bytes) (hHs : ∀ x, (Hs x).length = 32) (origin unsealed : Bytes)
    (n blockL leavesCount : Nat) (hb : 0 < blockL) (hc : 0 < leavesCount) (draw : Nat → Nat) (fuel : Nat)
    (indices : List Nat)
    (hch : createChallenges draw leavesCount 0 n fuel = .ok (some indices))
    (ol ul : List Bytes) (ot ut : MerkleTree) (oroot uroot : Bytes)
    (ho : generateMerkleTreeFromFile Hs origin (n * blockL) blockL = .ok (ol, ot, oroot))
    (hu : generateMerkleTreeFromFile Hs unsealed (n * blockL) blockL = .ok (ul, ut, uroot)) :
    merkleTreeProof Hs origin unsealed (n * blockL) blockL leavesCount draw fuel =
      if uroot = oroot then .ok (some ()) else .error .assertion := by
  have hdiv : div! (n * blockL) blockL = .ok n := by
    unfold div!
    rw [if_neg (by omega), Nat.mul_div_cancel _ hb]
  have hcnt : (n * blockL + blockL - 1) / blockL = n := by
    rw [Nat.add_sub_assoc hb, Nat.add_comm, Nat.add_mul_div_right _ _ hb, Nat.div_eq_of_lt (by omega), Nat.zero_add]
  obtain ⟨c1, c2, c3⟩ := C24_sorted_distinct draw leavesCount 0 n fuel indices hch
  have hn : 0 < n := by
    rcases Nat.eq_zero_or_pos n with h | h
    · have : indices = [] := List.eq_nil_iff_forall_not_mem.mpr fun x hx => by have := c3 x hx; omega
      rw [this] at c2
      simp at c2
      omega
    · exact h
  have hu' := hu
  rw [fileTree_eq_dataTree Hs _ _ _ hb, hcnt] at hu'
  obtain ⟨leaves, tree, root, proof, m1, m2, m3, m4⟩ := C31_completeness Hs hHs
    ((List.range n).map (fun i => readFile unsealed ((i + 1) * blockL) blockL)) (by
      intro h0
      rw [List.map_eq_nil_iff, List.range_eq_nil] at h0
      omega) indices c1 (by intro h0; rw [h0] at c2; simp at c2; omega) (fun k hk => by
      have := (c3 k hk).2; simpa using this)
  rw [m1] at hu'
  have hu' := Except.ok.inj hu'
  simp only [Prod.mk.injEq] at hu'
  obtain ⟨e1, e2, e3⟩ := hu'
  subst e1 e2 e3
  unfold merkleTreeProof
  rw [ho, hu]
  simp only [bind_ok]
  rw [hdiv, bind_ok, hch]
  simp only [bind_ok]
  rw [m3, bind_ok]
  obtain ⟨v1, v2⟩ := (verifyMerkleProof_iff _ _ _ _ _).mp m4
  by_cases he : root = oroot
  · subst he
    rw [m4, if_pos rfl]
    rfl
  · rw [if_neg he]
    unfold verifyMerkleProof
    rw [collect_leaves, if_pos v1, bind_ok]
    unfold proofVerify
    rw [v2]
    simp only [beq_iff_eq, if_neg he]
    rfl

/-- Acceptance: the whole retrieved file agrees with the original from the second block on, not only in
the challenged blocks, unless two different strings hashed for the two trees have the same hash. -/
theorem C70_sound (Hs : Bytes → Bytes) (hHs : ∀ x, (Hs x).length = 32) (origin unsealed : Bytes)
    (n blockL leavesCount : Nat) (hb : 0 < blockL) (draw : Nat → Nat) (fuel : Nat)
    (h : merkleTreeProof Hs origin unsealed (n * blockL) blockL leavesCount draw fuel = .ok (some ())) :
    ∃ l tree l' tree' root,
      generateMerkleTreeFromFile Hs unsealed (n * blockL) blockL = .ok (l, tree, root) ∧
      generateMerkleTreeFromFile Hs origin (n * blockL) blockL = .ok (l', tree', root) ∧
      (Collides Hs (innerStrings tree.layers) (innerStrings tree'.layers) ∨
        Collides Hs (leafContents unsealed (n * blockL) blockL) (leafContents origin (n * blockL) blockL) ∨
        ∀ x, blockL ≤ x → x < (n + 1) * blockL → unsealed[x]?.getD 0 = origin[x]?.getD 0) := by
  have hdiv : div! (n * blockL) blockL = .ok n := by
    unfold div!
    rw [if_neg (by omega), Nat.mul_div_cancel _ hb]
  have hcnt : (n * blockL + blockL - 1) / blockL = n := by
    rw [Nat.add_sub_assoc hb, Nat.add_comm, Nat.add_mul_div_right _ _ hb, Nat.div_eq_of_lt (by omega), Nat.zero_add]
  have h0 := h
  unfold merkleTreeProof at h
  rw [bind_eq_ok] at h
  obtain ⟨o, ho, h⟩ := h
  rw [bind_eq_ok] at h
  obtain ⟨u, hu, h⟩ := h
  have hn : 0 < n := by
    rcases Nat.eq_zero_or_pos n with hz | hz
    · have hu0 := hu
      rw [fileTree_eq_dataTree Hs _ _ _ hb, hcnt, hz] at hu0
      cases hu0
    · exact hz
  rw [hdiv, bind_ok, bind_eq_ok] at h
  obtain ⟨ch, hch, h⟩ := h
  cases ch with
  | none => cases h
  | some indices =>
    simp only [] at h
    rw [bind_eq_ok] at h
    obtain ⟨proof, hproof, h⟩ := h
    rw [bind_eq_ok] at h
    obtain ⟨⟨⟩, hv, -⟩ := h
    obtain ⟨ol, ot, oroot⟩ := o
    obtain ⟨ul, ut, uroot⟩ := u
    have hc : 0 < leavesCount := by
      rcases Nat.eq_zero_or_pos leavesCount with hz | hz
      · obtain ⟨-, c2, -⟩ := C24_sorted_distinct draw leavesCount 0 n fuel indices hch
        have hi : indices = [] := by
          apply List.eq_nil_of_length_eq_zero
          simpa [hz] using c2
        subst hi
        refine absurd hv (C31_empty_challenge_rejected Hs proof oroot ul ?_)
        have hul := hu
        rw [fileTree_eq_dataTree Hs _ _ _ hb, hcnt] at hul
        unfold generateMerkleTreeFromData at hul
        simp only [] at hul
        split at hul
        · cases hul
          intro hnil
          simp at hnil
          omega
        · cases hul
      · exact hz
    rw [C70_decides Hs hHs origin unsealed n blockL leavesCount hb hc draw fuel indices hch ol ul ot ut oroot uroot
      ho hu] at h0
    have he : uroot = oroot := by
      by_contra hne
      rw [if_neg hne] at h0
      cases h0
    subst he
    refine ⟨ul, ut, ol, ot, uroot, hu, ho, ?_⟩
    have := C30_equal_roots Hs hHs unsealed origin (n * blockL) blockL _ _ _ _ _ hu ho
    rwa [hcnt] at this

/-- Completeness, with the gap: whenever the draw finishes, a file that agrees with the original from
the second block on is accepted, whatever its first block is. -/
theorem C70_complete (Hs : Bytes → Bytes) (hHs : ∀ x, (Hs x).length = 32) (origin unsealed : Bytes)
    (n blockL leavesCount : Nat) (hb : 0 < blockL) (hc : 0 < leavesCount) (draw : Nat → Nat) (fuel : Nat)
    (heq : unsealed.drop blockL = origin.drop blockL) (indices : List Nat)
    (hch : createChallenges draw leavesCount 0 n fuel = .ok (some indices)) :
    merkleTreeProof Hs origin unsealed (n * blockL) blockL leavesCount draw fuel = .ok (some ()) := by
  have hdiv : div! (n * blockL) blockL = .ok n := by
    unfold div!
    rw [if_neg (by omega), Nat.mul_div_cancel _ hb]
  have hcnt : (n * blockL + blockL - 1) / blockL = n := by
    rw [Nat.add_sub_assoc hb, Nat.add_comm, Nat.add_mul_div_right _ _ hb, Nat.div_eq_of_lt (by omega), Nat.zero_add]
  obtain ⟨c1, c2, c3⟩ := C24_sorted_distinct draw leavesCount 0 n fuel indices hch
  have hn : 0 < n := by
    rcases Nat.eq_zero_or_pos n with h | h
    · have : indices = [] := List.eq_nil_iff_forall_not_mem.mpr fun x hx => by have := c3 x hx; omega
      rw [this] at c2
      simp at c2
      omega
    · exact h
  unfold merkleTreeProof
  rw [C30_first_leaf_ignored Hs unsealed origin _ _ heq, fileTree_eq_dataTree Hs _ _ _ hb, hcnt]
  obtain ⟨leaves, tree, root, proof, m1, -, m3, m4⟩ := C31_completeness Hs hHs
    ((List.range n).map (fun i => readFile origin ((i + 1) * blockL) blockL)) (by
      intro h0
      rw [List.map_eq_nil_iff, List.range_eq_nil] at h0
      omega) indices c1 (by intro h0; rw [h0] at c2; simp at c2; omega) (fun k hk => by
      have := (c3 k hk).2; simpa using this)
  rw [m1]
  simp only [bind_ok]
  rw [hdiv, bind_ok, hch]
  simp only [bind_ok]
  rw [m3, bind_ok, m4, bind_ok]
  rfl

/-- Accepted with a wrong first block, rejected with a wrong second one. -/
example : merkleTreeProof toyHash [1, 2, 3, 4, 5, 6] [9, 9, 3, 4, 5, 6] 6 2 1 (fun _ => 0) 1 = .ok (some ()) ∧
    merkleTreeProof toyHash [1, 2, 3, 4, 5, 6] [1, 2, 3, 7, 5, 6] 6 2 1 (fun _ => 0) 1 = .error .assertion := by
  decide +kernel

end PoS
