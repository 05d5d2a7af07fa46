import Verif.Properties.Protocol

/-
C74: the exact verdict of a challenge round.  C75: the Merkle root as a recursive tree hash.
-/

namespace PoS

/-! ### C74: the verdict of a round -/

/-- A round is accepted exactly when the response hash is right, the Merkle proof verifies, the public
data loads, and every challenged block, none left out, decodes to the block of the original file. -/
theorem C74_accepted_iff (H Hs : Bytes → Bytes) (params : PosPara) (c : Nat) (hu : 0 < params.unitL)
    (hb : params.blockL = c * params.unitL) (origin pubdata : Bytes) (leaves : List Bytes) (root : Bytes) (r : UInt8)
    (indices : List Nat) (resp : Response) (par : Nat) (sched : List Nat) :
    verifierCheck H Hs params origin pubdata leaves root r indices resp par sched = .ok (some ()) ↔
      resp.hash = H (r :: (resp.blocks.map List.flatten).flatten) ∧
      verifyMerkleProof Hs resp.proof root indices leaves = .ok () ∧
      ∃ key iv outs, loadData pubdata = .ok (key, iv) ∧
        (par = 0 → batchUnseal H params indices resp.blocks resp.beforeIds resp.dependBlocks key iv = .ok outs) ∧
        (par ≠ 0 → batchUnsealParallel H params indices resp.blocks resp.beforeIds resp.dependBlocks key iv par sched =
          .ok (some outs)) ∧
        ∀ i (hi : i < indices.length), ∃ out, outs[i]? = some out ∧
          ∀ j < c, ∃ u, out[j]? = some u ∧ params.unitL ≤ u.length ∧ ∀ t < params.unitL,
            u[t]? = some (origin[indices[i] * params.blockL + j * params.unitL + t]?.getD 0) := by
  have hiff : ∀ (outs : List (List Bytes)),
      forUp indices.length (fun i (_ : Unit) => do
        let k ← at! indices i
        let b ← at! outs i
        batchVerify origin k b params.blockL params.unitL) () = .ok () ↔
      ∀ i (hi : i < indices.length), ∃ out, outs[i]? = some out ∧
          ∀ j < c, ∃ u, out[j]? = some u ∧ params.unitL ≤ u.length ∧ ∀ t < params.unitL,
            u[t]? = some (origin[indices[i] * params.blockL + j * params.unitL + t]?.getD 0) := by
    intro outs
    rw [forUp_unit_iff (f := fun i => do
        let k ← at! indices i
        let b ← at! outs i
        batchVerify origin k b params.blockL params.unitL)]
    refine forall_congr' (fun i => forall_congr' (fun hi => ?_))
    rw [at!_of_lt hi, bind_ok, bind_eq_ok]
    refine exists_congr (fun out => ?_)
    rw [at!_eq_ok, C27_accepts_iff origin _ _ _ c hu hb]
  have hrb : responseBytes r resp.blocks = r :: (resp.blocks.map List.flatten).flatten := rfl
  unfold verifierCheck
  simp only [hrb]
  constructor
  · intro h
    by_cases he : resp.hash = H (r :: (resp.blocks.map List.flatten).flatten)
    · rw [if_neg (by simpa using he), bind_eq_ok] at h
      obtain ⟨⟨⟩, h1, h⟩ := h
      rw [bind_eq_ok] at h
      obtain ⟨⟨key, iv⟩, h2, h⟩ := h
      rw [bind_eq_ok] at h
      obtain ⟨o, h3, h⟩ := h
      cases o with
      | none => cases h
      | some outs =>
        simp only [] at h
        rw [bind_eq_ok] at h
        obtain ⟨⟨⟩, h5, -⟩ := h
        refine ⟨he, h1, key, iv, outs, h2, ?_, ?_, (hiff outs).mp h5⟩
        · intro hp
          rw [if_pos hp, bind_eq_ok] at h3
          obtain ⟨o', h3, h4⟩ := h3
          cases h4
          exact h3
        · intro hp
          rw [if_neg hp] at h3
          exact h3
    · rw [if_pos he] at h; cases h
  · rintro ⟨he, h1, key, iv, outs, h2, h3, h4, h5⟩
    rw [if_neg (by simpa using he), h1, bind_ok, h2, bind_ok]
    by_cases hp : par = 0
    · rw [if_pos hp, h3 hp, bind_ok]
      show (do
        forUp indices.length _ ()
        pure (some ())) = _
      rw [(hiff outs).mpr h5]
      rfl
    · rw [if_neg hp, h4 hp, bind_ok]
      show (do
        forUp indices.length _ ()
        pure (some ())) = _
      rw [(hiff outs).mpr h5]
      rfl

theorem runRounds_accepted (round : RoundChoices → R (Option Unit)) (l : List RoundChoices) :
    runRounds round l = .ok (some ()) ↔ ∀ ch ∈ l, round ch = .ok (some ()) := by
  induction l with
  | nil => simp [runRounds, pure, Except.pure]
  | cons a l ih =>
    rw [runRounds, List.forall_mem_cons, ← ih]
    cases h : round a with
    | error e => simp [bind, Except.bind]
    | ok o =>
      cases o with
      | none => simp [bind, Except.bind, pure, Except.pure]
      | some u => simp [bind, Except.bind]

/-- An accepted pipeline run has sealed the padded original, and every one of its rounds was accepted
against the ids of this sealing. -/
theorem C74_every_round (H Hs : Bytes → Bytes) (params : PosPara) (origin old : Bytes) (rng : Nat → UInt8)
    (count par : Nat) (choices : List RoundChoices)
    (h : pipeline H Hs params origin old rng count par choices = .ok (some ())) :
    ∃ padded st leaves tree root, copyAndPad origin params.dataL params.unitL = .ok padded ∧
      sealFile H params padded (prepareParams params.unitPl rng).1 (prepareParams params.unitPl rng).2 = .ok st ∧
      generateMerkleTreeFromData Hs st.ids = .ok (leaves, tree, root) ∧
      ∀ ch ∈ choices, ∃ indices resp, createChallenges ch.draw count 0 (params.dataL / params.blockL) ch.fuel =
          .ok (some indices) ∧
        proverRespond H params st.file tree ch.r indices = .ok resp ∧
        verifierCheck H Hs params origin
          (saveData old (prepareParams params.unitPl rng).1 (prepareParams params.unitPl rng).2) leaves root ch.r indices
          resp par ch.sched = .ok (some ()) := by
  unfold pipeline at h
  rw [bind_eq_ok] at h
  obtain ⟨o, -, h⟩ := h
  rw [bind_eq_ok] at h
  obtain ⟨padded, h1, h⟩ := h
  simp only [] at h
  rw [bind_eq_ok] at h
  obtain ⟨st, h2, h⟩ := h
  rw [bind_eq_ok] at h
  obtain ⟨⟨leaves, tree, root⟩, h3, h⟩ := h
  rw [bind_eq_ok] at h
  obtain ⟨a, h4, h⟩ := h
  cases a with
  | none => cases h
  | some u =>
    refine ⟨padded, st, leaves, tree, root, h1, h2, h3, ?_⟩
    rw [runRounds_accepted] at h4
    intro ch hch
    have := h4 ch hch
    unfold challengeRound at this
    rw [bind_eq_ok] at this
    obtain ⟨n, hn, this⟩ := this
    rw [bind_eq_ok] at this
    obtain ⟨o, ho, this⟩ := this
    have hn' : n = params.dataL / params.blockL := by
      unfold div! at hn
      split at hn
      · cases hn
      · exact (Except.ok.inj hn).symm
    cases o with
    | none => cases this
    | some indices =>
      simp only [] at this
      rw [bind_eq_ok] at this
      obtain ⟨resp, hr, this⟩ := this
      exact ⟨indices, resp, by rw [← hn']; exact ho, hr, this⟩

/-- A round on two blocks: accepted, and rejected when the second challenged block is altered and the hash
recomputed. -/
example : (match copyAndPad (toyFile 126) 126 63 with
    | .ok padded => match sealFile toyHash (toyParams 2 1 0 0 0 1 1) padded P_512 [1, 2, 3] with
      | .ok st => match generateMerkleTreeFromData toyHash st.ids with
        | .ok (leaves, tree, root) => match proverRespond toyHash (toyParams 2 1 0 0 0 1 1) st.file tree 7 [0, 1] with
          | .ok resp =>
            let bad := resp.blocks.set 1 [zeros 64]
            decide (verifierCheck toyHash toyHash (toyParams 2 1 0 0 0 1 1) (toyFile 126) (saveData [] P_512 [1, 2, 3])
                leaves root 7 [0, 1] resp 0 [] = .ok (some ()) ∧
              verifierCheck toyHash toyHash (toyParams 2 1 0 0 0 1 1) (toyFile 126) (saveData [] P_512 [1, 2, 3])
                leaves root 7 [0, 1] { resp with blocks := bad, hash := toyHash (7 :: (bad.map List.flatten).flatten) } 0 []
                = .error .assertion)
          | _ => false
        | _ => false
      | _ => false
    | _ => false) = true := by decide +kernel

/-! ### C75: the Merkle root -/

/-- The tree hash of RFC 6962, without its domain separation bytes: a list of more than one entry is cut
at the largest power of two below its length. -/
def treeHash (H : Bytes → Bytes) (l : List Bytes) : Bytes :=
  if h : l.length ≤ 1 then l.headD []
  else
    have hlt : 2 ^ Nat.log 2 (l.length - 1) < l.length :=
      lt_of_le_of_lt (Nat.pow_log_le_self 2 (by omega)) (by omega)
    H (treeHash H (l.take (2 ^ Nat.log 2 (l.length - 1))) ++ treeHash H (l.drop (2 ^ Nat.log 2 (l.length - 1))))
termination_by l.length
decreasing_by
  · simp only [List.length_take]; omega
  · simp only [List.length_drop]
    have : 0 < 2 ^ Nat.log 2 (l.length - 1) := by positivity
    omega

/-- One layer up: neighbours hashed together, an odd last entry kept. -/
def pairUp (H : Bytes → Bytes) : List Bytes → List Bytes
  | [] => []
  | [a] => [a]
  | a :: b :: l => H (a ++ b) :: pairUp H l

theorem pairUp_length (H : Bytes → Bytes) : ∀ l, (pairUp H l).length = (l.length + 1) / 2
  | [] => rfl
  | [_] => by simp [pairUp]
  | _ :: _ :: l => by simp [pairUp, pairUp_length H l]; omega

theorem pairUp_append (H : Bytes → Bytes) : ∀ (a b : List Bytes), a.length % 2 = 0 →
    pairUp H (a ++ b) = pairUp H a ++ pairUp H b
  | [], b, _ => rfl
  | [x], b, h => by simp at h
  | x :: y :: a, b, h => by
    have : a.length % 2 = 0 := by simp at h; omega
    simp [pairUp, pairUp_append H a b this]

theorem treeHash_one (H : Bytes → Bytes) (a : Bytes) : treeHash H [a] = a := by
  rw [treeHash]; simp

theorem treeHash_cut (H : Bytes → Bytes) (l : List Bytes) (n k : Nat) (hl : l.length = n) (hn : 2 ≤ n)
    (hk : Nat.log 2 (n - 1) = k) : treeHash H l = H (treeHash H (l.take (2 ^ k)) ++ treeHash H (l.drop (2 ^ k))) := by
  subst hl hk
  rw [treeHash, dif_neg (by omega)]

theorem treeHash_pairUp (H : Bytes → Bytes) (n : Nat) : ∀ l : List Bytes, l.length = n → 
    treeHash H (pairUp H l) = treeHash H l := by
  induction n using Nat.strong_induction_on with
  | _ n ih =>
    intro l hl
    rcases Nat.lt_or_ge n 2 with h2 | h2
    · match l, hl with
      | [], _ => rfl
      | [_], _ => rfl
      | _ :: _ :: _, hl => simp at hl; omega
    · rcases Nat.lt_or_ge n 3 with h3 | h3
      · match l, hl with
        | [a, b], _ =>
          rw [treeHash_cut H [a, b] 2 0 rfl (by omega) (by simp)]
          simp [pairUp, treeHash_one, show List.take 1 [a, b] = [a] from rfl]
        | [], hl => simp at hl; omega
        | [_], hl => simp at hl; omega
        | _ :: _ :: _ :: _, hl => simp at hl; omega
      · have hk1 : 2 ^ Nat.log 2 (n - 1) ≤ n - 1 := Nat.pow_log_le_self 2 (by omega)
        have hk2 : n - 1 < 2 ^ (Nat.log 2 (n - 1) + 1) := Nat.lt_pow_succ_log_self (by norm_num) _
        have hlogpos : 0 < Nat.log 2 (n - 1) := Nat.log_pos (by norm_num) (by omega)
        obtain ⟨e, he⟩ : ∃ e, Nat.log 2 (n - 1) = e + 1 := ⟨Nat.log 2 (n - 1) - 1, by omega⟩
        have hm : (pairUp H l).length = (n + 1) / 2 := by rw [pairUp_length, hl]
        have hlog : Nat.log 2 ((n + 1) / 2 - 1) = e := by
          rw [Nat.log_eq_iff (Or.inr ⟨by norm_num, by omega⟩)]
          rw [he] at hk1 hk2
          rw [pow_succ] at hk1 hk2
          rw [pow_succ] at hk2 ⊢
          omega
        have hpe : 0 < 2 ^ e := by positivity
        rw [treeHash_cut H _ _ _ hm (by omega) hlog, treeHash_cut H l _ _ hl (by omega) he]
        rw [he, pow_succ] at hk1
        have hlt : (l.take (2 ^ (e + 1))).length = 2 ^ (e + 1) := by
          rw [List.length_take, hl, pow_succ]; omega
        have hsplit : pairUp H l = pairUp H (l.take (2 ^ (e + 1))) ++ pairUp H (l.drop (2 ^ (e + 1))) := by
          rw [← pairUp_append _ _ _ (by rw [hlt, pow_succ]; omega), List.take_append_drop]
        have hpl : (pairUp H (l.take (2 ^ (e + 1)))).length = 2 ^ e := by
          rw [pairUp_length, hlt, pow_succ]; omega
        rw [hsplit, List.take_left' hpl, List.drop_left' hpl,
          ih (2 ^ (e + 1)) (by rw [pow_succ]; omega) _ hlt,
          ih (n - 2 ^ (e + 1)) (by rw [pow_succ]; omega) _ (by rw [List.length_drop, hl])]

theorem pairUp_map (H : Bytes → Bytes) (m : Nat) (t : Nat → Bytes) :
    pairUp H ((List.range m).map t) = (List.range ((m + 1) / 2)).map (up H m t) := by
  induction m using Nat.strong_induction_on generalizing t with
  | _ m ih =>
    match m with
    | 0 => rfl
    | 1 => rfl
    | m + 2 =>
      have e1 : (List.range (m + 2)).map t = t 0 :: t 1 :: (List.range m).map (fun i => t (i + 2)) := by
        rw [List.range_succ_eq_map, List.range_succ_eq_map]
        simp [List.map_map, Function.comp_def]
      have e2 : (m + 2 + 1) / 2 = (m + 1) / 2 + 1 := by omega
      rw [e1, pairUp, ih m (by omega), e2, List.range_succ_eq_map]
      simp only [List.map_cons, List.map_map]
      congr 1
      refine List.map_congr_left (fun i _ => ?_)
      simp only [up, Function.comp_def, Nat.succ_eq_add_one]
      rw [show 2 * (i + 1) = 2 * i + 2 by ring]
      by_cases h : 2 * i + 1 < m
      · rw [if_pos h, if_pos (by omega)]
      · rw [if_neg h, if_neg (by omega)]

theorem topValue_treeHash (H : Bytes → Bytes) : ∀ (d m : Nat) (t : Nat → Bytes), Levels d m →
    topValue H d m t = treeHash H ((List.range m).map t)
  | 0, m, t, h => by
    have : m = 1 := h
    subst this
    exact (treeHash_one H (t 0)).symm
  | d + 1, m, t, h => by
    rw [topValue, topValue_treeHash H d _ _ h, ← pairUp_map, treeHash_pairUp H _ _ rfl]

/-- The root committed to by `generate_merkle_tree_from_data` is the tree hash of the hashed entries;
leaf and inner hashes are not told apart. -/
theorem C75_root (H : Bytes → Bytes) (values : List Bytes) (hne : values ≠ []) :
    ∃ tree, generateMerkleTreeFromData H values = .ok (values.map H, tree, treeHash H (values.map H)) := by
  have hl : values.map H ≠ [] := by simpa using hne
  obtain ⟨-, h⟩ := merkleFromLeaves_eq H hl
  have hpos : 0 < (values.map H).length := List.length_pos_of_ne_nil hl
  rw [topValue_treeHash H _ _ _ (levels_treeDepth hpos)] at h
  have e : (List.range (values.map H).length).map (fun k => (values.map H)[k]?.getD []) = values.map H := by
    apply List.ext_getElem
    · simp
    · intro i h1 h2
      rw [List.getElem_map, List.getElem_range, List.getElem?_eq_getElem h2]
      rfl
  rw [e] at h
  refine ⟨merkleFromLeaves H (values.map H), ?_⟩
  unfold generateMerkleTreeFromData
  simp only [h]

/-- The root of a file: the tree hash of the hashed blocks, from the second one on and with one block
read behind the end. -/
theorem C75_file_root (H : Bytes → Bytes) (file : Bytes) (n len : Nat) (hn : 0 < n) (hl : 0 < len) :
    ∃ tree, generateMerkleTreeFromFile H file (n * len) len =
      .ok ((List.range n).map (fun k => H (readFile file ((k + 1) * len) len)), tree,
        treeHash H ((List.range n).map (fun k => H (readFile file ((k + 1) * len) len)))) := by
  have hcnt : (n * len + len - 1) / len = n := by
    rw [Nat.add_sub_assoc hl, Nat.add_comm, Nat.add_mul_div_right _ _ hl, Nat.div_eq_of_lt (by omega), Nat.zero_add]
  rw [fileTree_eq_dataTree H _ _ _ hl, hcnt]
  obtain ⟨tree, h⟩ := C75_root H ((List.range n).map (fun i => readFile file ((i + 1) * len) len)) (by simp; omega)
  refine ⟨tree, ?_⟩
  rw [h, List.map_map]
  rfl

/-- Five entries: four and one, the last one kept up to the top. -/
example : treeHash toyHash [[1], [2], [3], [4], [5]] =
    toyHash (toyHash (toyHash ([1] ++ [2]) ++ toyHash ([3] ++ [4])) ++ [5]) := by
  rw [treeHash_cut _ _ 5 2 rfl (by omega) (by decide +kernel), show List.take (2 ^ 2) [[(1 : UInt8)], [2], [3], [4], [5]] = [[1], [2], [3], [4]] from rfl,
    show List.drop (2 ^ 2) [[(1 : UInt8)], [2], [3], [4], [5]] = [[5]] from rfl, treeHash_one,
    treeHash_cut _ _ 4 1 rfl (by omega) (by decide +kernel), show List.take (2 ^ 1) [[(1 : UInt8)], [2], [3], [4]] = [[1], [2]] from rfl,
    show List.drop (2 ^ 1) [[(1 : UInt8)], [2], [3], [4]] = [[3], [4]] from rfl,
    treeHash_cut _ _ 2 0 rfl (by omega) (by decide +kernel), treeHash_cut _ [[3], [4]] 2 0 rfl (by omega) (by decide +kernel)]
  simp [treeHash_one, List.take]

end PoS
