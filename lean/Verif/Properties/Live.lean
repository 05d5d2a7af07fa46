import Verif.Model.Live
import Verif.Properties.Interrupt
import Verif.Properties.ShortBatch

/-
C119: answering from a file while `seal` or `unseal` is rewriting it.
-/

namespace PoS

/-- `f` is a content that the file has while `seal` works on `file`, at a time when block `k` has been sealed
(later blocks may be sealed, half written or untouched), or when it has finished. -/
def SealingShows (H : Bytes → Bytes) (params : PosPara) (file : Bytes) (key : Int) (iv : Bytes) (n k : Nat) (f : Bytes) : Prop :=
  (∃ b w, k < b ∧ b < n ∧ w ≤ params.blockPl ∧ sealStopped H params file key iv b w = .ok f) ∨
    ∃ st, sealFile H params file key iv = .ok st ∧ f = st.file

/-- `f` is a content that the file has while `unseal` works on `file`, at a time when block `k` has not been
touched (later blocks may be unsealed or half written), or before it starts. -/
def UnsealingShows (H : Bytes → Bytes) (params : PosPara) (file : Bytes) (key : Int) (iv : Bytes) (n k : Nat) (f : Bytes) : Prop :=
  f = file ∨ ∃ m w, m < n ∧ w ≤ params.blockPl ∧ (k + 1 + m < n ∨ (k + 1 + m = n ∧ w = 0)) ∧
    unsealStopped H params file key iv m w = .ok f

theorem pos_of_lt_mul {x k b : Nat} (h : x < k * b) : k ≠ 0 := by
  rintro rfl
  rw [Nat.zero_mul] at h
  omega

theorem readBlocksLive_same {params : PosPara} {dep : Nat → Bytes} {F : Bytes} {k : Nat}
    (h : ∀ m x, x < k * params.blockPl → (dep m)[x]? = F[x]?) {l : List Nat} (hl : ∀ i ∈ l, i < k) :
    readBlocksLive dep params l = readBlocks params F l := by
  unfold readBlocks
  rw [← forUp_at_eq_forEach]
  unfold readBlocksLive
  refine forUp_congr fun m hm s => ?_
  rw [at!_of_lt hm, bind_ok, bind_ok]
  have hi := hl _ (List.getElem_mem hm)
  have e : readFile (dep m) (l[m] * params.blockPl) params.blockPl = readFile F (l[m] * params.blockPl) params.blockPl :=
    readFile_congr fun x _ hx => h m x (by
      have : (l[m] + 1) * params.blockPl ≤ k * params.blockPl := Nat.mul_le_mul_right _ (by omega)
      rw [Nat.add_mul, Nat.one_mul] at this
      omega)
  simp only [e]

/-- If the contents found agree with the file `F`, the one in which block `k` is found up to the end of this block and
the others up to its beginning, what is prepared for block `k` is what is prepared from `F`; in every dependency
mode, panics included. -/
theorem C119_same (H : Bytes → Bytes) (params : PosPara) (k : Nat) (F own before : Bytes) (dep : Nat → Bytes)
    (ho : ∀ x < (k + 1) * params.blockPl, own[x]? = F[x]?) (hb : ∀ x < k * params.blockPl, before[x]? = F[x]?)
    (hd : ∀ m, ∀ x < k * params.blockPl, (dep m)[x]? = F[x]?) :
    singleUnsealPrepareLive own before dep H params k = singleUnsealPrepare H params F k := by
  have e1 : readFile own (k * params.blockPl) params.blockPl = readFile F (k * params.blockPl) params.blockPl :=
    readFile_congr fun x _ hx => ho x (by rw [Nat.add_mul, Nat.one_mul]; exact hx)
  have e2 : (if k ≠ 0 then H (readFile before ((k - 1) * params.blockPl) params.blockPl) else []) =
      if k ≠ 0 then H (readFile F ((k - 1) * params.blockPl) params.blockPl) else [] := by
    by_cases hk : k = 0
    · rw [if_neg (by simp [hk]), if_neg (by simp [hk])]
    · rw [if_pos hk, if_pos hk]
      congr 1
      exact readFile_congr fun x _ hx => hb x (by
        have : (k - 1 + 1) * params.blockPl = k * params.blockPl := by rw [Nat.sub_add_cancel (by omega)]
        rw [Nat.add_mul, Nat.one_mul] at this
        omega)
  unfold singleUnsealPrepareLive singleUnsealPrepare
  simp only [e1, e2]
  cases toUnits (readFile F (k * params.blockPl) params.blockPl) params.unitPl with
  | error e => rfl
  | ok block =>
    rw [bind_ok, bind_ok]
    cases hn : div! params.dataL params.blockL with
    | error e => rfl
    | ok n =>
      rw [bind_ok, bind_ok]
      cases hL : idxsLOf params n with
      | error e => rfl
      | ok L =>
        rw [bind_ok, bind_ok]
        congr 1
        generalize (if k ≠ 0 then H (readFile F ((k - 1) * params.blockPl) params.blockPl) else []) = id
        by_cases hm : params.modeL = 0
        · rw [if_pos hm, if_pos hm]
          cases hc : ((if k = 0 then pure [] else if params.cntL = 0 then longModeRandom H n id k (k / 10 + 1)
              else longModeRandom H n id k params.cntL : R (List Nat))) with
          | error e => rfl
          | ok cur =>
            rw [bind_ok, bind_ok]
            refine readBlocksLive_same hd fun i hi => ?_
            by_cases hk : k = 0
            · rw [if_pos hk] at hc; cases hc; cases hi
            · rw [if_neg hk] at hc
              by_cases h0 : params.cntL = 0
              · rw [if_pos h0] at hc; exact (C18_long_random H n k _ id cur hc).2.1 i hi
              · rw [if_neg h0] at hc; exact (C18_long_random H n k _ id cur hc).2.1 i hi
        · rw [if_neg hm, if_neg hm]
          cases hc : at! L k with
          | error e => rfl
          | ok cur =>
            rw [bind_ok, bind_ok]
            exact readBlocksLive_same hd fun i hi => idxsLOf_longOk hL k cur (at!_eq_ok.mp hc) i hi

/-- What is prepared for block `k`, whatever the contents found: each part from the content its own read found. -/
theorem C119_prepare (H : Bytes → Bytes) (hH : ∀ x, (H x).length = 32) (params : PosPara) (p n c : Nat)
    (cfg : Config params p n c) (hL : LongModeOk params n) (own before : Bytes) (dep : Nat → Bytes) (k : Nat) (hk : k < n)
    (id : Bytes) (hid : id = H (readFile before ((k - 1) * params.blockPl) params.blockPl)) :
    singleUnsealPrepareLive own before dep H params k = .ok
      ⟨plainUnits params c own k, (if k ≠ 0 then id else []),
        (longOf H params n id k).mapIdx (fun m i => plainUnits params c (dep m) i)⟩ := by
  have hrb : ∀ l, readBlocksLive dep params l = .ok (l.mapIdx (fun m i => plainUnits params c (dep m) i)) := by
    intro l
    unfold readBlocksLive
    exact forUp_mapIdx (l := l) (g := fun m i => toUnits (readFile (dep m) (i * params.blockPl) params.blockPl) params.unitPl)
      (g' := fun m i => plainUnits params c (dep m) i) (fun m hm => toUnits_plain cfg.layout _ _)
  obtain ⟨t, ht, hsel⟩ := longSel hH hL
  have hsel := (hsel k hk id).2 (List.replicate k id) (fun h0 => by
    rw [List.getElem?_replicate, if_pos (by omega)])
  unfold singleUnsealPrepareLive
  simp only []
  rw [toUnits_plain cfg.layout, bind_ok, cfg.div, bind_ok, ht, bind_ok, ← hid]
  refine bind_eq_ok.mpr ⟨_, ?_, rfl⟩
  unfold sealLongIdxs at hsel
  by_cases hm : params.modeL = 0
  · rw [if_pos hm] at hsel ⊢
    by_cases hk0 : k = 0
    · rw [if_pos hk0] at hsel ⊢
      rw [hsel, bind_ok, hrb]
    · rw [if_neg hk0] at hsel ⊢
      rw [at!_eq_ok.mpr (by rw [List.getElem?_replicate, if_pos (by omega)]), bind_ok] at hsel
      rw [if_pos hk0, hsel, bind_ok, hrb]
  · rw [if_neg hm] at hsel ⊢
    rw [hsel, bind_ok, hrb]

theorem singleUnsealPrepareLive_inv {own before : Bytes} {dep : Nat → Bytes} {H : Bytes → Bytes} {params : PosPara}
    {k : Nat} {pr : Prepared} (h : singleUnsealPrepareLive own before dep H params k = .ok pr) :
    toUnits (readFile own (k * params.blockPl) params.blockPl) params.unitPl = .ok pr.block ∧
    pr.beforeId = (if k ≠ 0 then H (readFile before ((k - 1) * params.blockPl) params.blockPl) else []) ∧
    ∃ n L, div! params.dataL params.blockL = .ok n ∧ idxsLOf params n = .ok L ∧
      (if params.modeL = 0 then do
        let cur ←
         (if k = 0 then pure []
          else
            if params.cntL = 0 then longModeRandom H n pr.beforeId k (k / 10 + 1)
            else longModeRandom H n pr.beforeId k params.cntL : R (List Nat))
        readBlocksLive dep params cur
      else do
        let cur ← at! L k
        readBlocksLive dep params cur) = .ok pr.dependBlocks := by
  unfold singleUnsealPrepareLive at h
  simp only [bind_eq_ok] at h
  obtain ⟨blk, h1, n, h2, L, h3, deps, h4, h5⟩ := h
  cases h5
  refine ⟨h1, rfl, n, L, h2, h3, ?_⟩
  simp only at h4 ⊢
  split at h4
  · next hm => rw [if_pos hm]; exact h4
  · next hm => rw [if_neg hm]; exact h4

/-- A range is prepared block by block, with the contents that the reads for each block find. -/
theorem C119_ranges (own before : Nat → Bytes) (dep : Nat → Nat → Bytes) (H : Bytes → Bytes) (params : PosPara)
    (a b : Nat) (idxs : List Nat) (hidx : blocksIdxOf params.blockPl a b = .ok idxs) (n : Nat) (L : List (List Nat))
    (hn : div! params.dataL params.blockL = .ok n) (hL : idxsLOf params n = .ok L) (pr : Nat → Prepared)
    (h : ∀ k ∈ idxs, singleUnsealPrepareLive (own k) (before k) (dep k) H params k = .ok (pr k)) :
    batchUnsealPrepareLive own before dep H params a b = .ok
      { blocksIdx := idxs, blocks := idxs.map (fun k => (pr k).block)
        beforeIds := idxs.map (fun k => (pr k).beforeId)
        dependBlocks := idxs.map (fun k => (pr k).dependBlocks) } := by
  unfold batchUnsealPrepareLive
  rw [hidx, bind_ok]
  have e1 : forEach idxs (fun idx2 res => do
      let buf := readFile (own idx2) (idx2 * params.blockPl) params.blockPl
      let ans ← toUnits buf params.unitPl
      pure (res ++ [ans])) [] = .ok (idxs.map (fun k => (pr k).block)) := by
    have := forEach_collect (f := fun k => toUnits (readFile (own k) (k * params.blockPl) params.blockPl) params.unitPl)
      (l := idxs) (acc := []) (g := fun k => (pr k).block)
      (fun k hk => (singleUnsealPrepareLive_inv (h k hk)).1)
    rw [List.nil_append] at this
    exact this
  rw [e1, bind_ok, hn, bind_ok, hL, bind_ok]
  have e2 : ∀ (l : List Nat) (acc : List Bytes × List (List (List Bytes))),
      (∀ k ∈ l, singleUnsealPrepareLive (own k) (before k) (dep k) H params k = .ok (pr k)) →
      forEach l (fun idx2 (s : List Bytes × List (List (List Bytes))) => do
        let beforeId :=
          if idx2 ≠ 0 then H (readFile (before idx2) ((idx2 - 1) * params.blockPl) params.blockPl) else []
        let single ←
         (if params.modeL = 0 then do
            let cur ←
             (if idx2 = 0 then pure []
              else
                if params.cntL = 0 then longModeRandom H n beforeId idx2 (idx2 / 10 + 1)
                else longModeRandom H n beforeId idx2 params.cntL : R (List Nat))
            readBlocksLive (dep idx2) params cur
          else do
            let cur ← at! L idx2
            readBlocksLive (dep idx2) params cur : R (List (List Bytes)))
        pure (s.1 ++ [beforeId], s.2 ++ [single])) acc =
      .ok (acc.1 ++ l.map (fun k => (pr k).beforeId), acc.2 ++ l.map (fun k => (pr k).dependBlocks)) := by
    intro l
    induction l with
    | nil => intro acc _; simp [forEach]
    | cons k l ih =>
      intro acc hl
      obtain ⟨-, g2, n', L', g3, g4, g5⟩ := singleUnsealPrepareLive_inv (hl k (by simp))
      rw [hn] at g3; cases g3
      rw [hL] at g4; cases g4
      rw [g2] at g5
      rw [forEach_cons]
      simp only [] at g5 ⊢
      rw [g5, bind_ok, pure_eq_ok, bind_ok, ih _ (fun k hk => hl k (by simp [hk]))]
      simp [g2]
  rw [e2 idxs _ h, bind_ok]
  rfl

/-- The answer to a challenge is made block by block from the contents that the reads for each block find. -/
theorem C119_respond (own before : Nat → Bytes) (dep : Nat → Nat → Bytes) (H : Bytes → Bytes) (params : PosPara)
    (tree : MerkleTree) (r : UInt8) (indices : List Nat) (pr : Nat → Prepared) (proof : List Bytes)
    (h : ∀ k ∈ indices, singleUnsealPrepareLive (own k) (before k) (dep k) H params k = .ok (pr k))
    (hp : generateMerkleProof indices tree = .ok proof) :
    proverRespondLive own before dep H params tree r indices = .ok
      { hash := H (r :: ((indices.map fun k => (pr k).block).map List.flatten).flatten)
        blocks := indices.map (fun k => (pr k).block), beforeIds := indices.map (fun k => (pr k).beforeId)
        dependBlocks := indices.map (fun k => (pr k).dependBlocks), proof := proof } := by
  have key : ∀ (l : List Nat) (s : Bytes × List (List Bytes) × List Bytes × List (List (List Bytes))),
      (∀ k ∈ l, singleUnsealPrepareLive (own k) (before k) (dep k) H params k = .ok (pr k)) →
      forEach l (fun idx2 (s : Bytes × List (List Bytes) × List Bytes × List (List (List Bytes))) => do
        let pr ← singleUnsealPrepareLive (own idx2) (before idx2) (dep idx2) H params idx2
        pure (s.1 ++ pr.block.flatten, s.2.1 ++ [pr.block], s.2.2.1 ++ [pr.beforeId], s.2.2.2 ++ [pr.dependBlocks])) s =
      .ok (s.1 ++ ((l.map fun k => (pr k).block).map List.flatten).flatten,
        s.2.1 ++ l.map (fun k => (pr k).block), s.2.2.1 ++ l.map (fun k => (pr k).beforeId),
        s.2.2.2 ++ l.map (fun k => (pr k).dependBlocks)) := by
    intro l
    induction l with
    | nil => intro s _; simp [forEach]
    | cons a l ih =>
      intro s hl
      rw [forEach_cons, hl a (by simp)]
      rw [bind_ok, pure_eq_ok, bind_ok, ih _ (fun k hk => hl k (by simp [hk]))]
      simp
  unfold proverRespondLive
  rw [key indices _ h, bind_ok, hp, bind_ok]
  simp [pure_eq_ok]

/-- A range is prepared as from the file `F` if the contents found agree with it as in `C119_same`. -/
theorem C119_range (own before : Nat → Bytes) (dep : Nat → Nat → Bytes) (H : Bytes → Bytes) (params : PosPara)
    (a b : Nat) (F : Bytes)
    (same : ∀ k idxs, blocksIdxOf params.blockPl a b = .ok idxs → k ∈ idxs →
      (∀ x < (k + 1) * params.blockPl, (own k)[x]? = F[x]?) ∧ (∀ x < k * params.blockPl, (before k)[x]? = F[x]?) ∧
      ∀ m, ∀ x < k * params.blockPl, (dep k m)[x]? = F[x]?) :
    batchUnsealPrepareLive own before dep H params a b = batchUnsealPrepare H params F a b := by
  unfold batchUnsealPrepareLive batchUnsealPrepare
  cases hidx : blocksIdxOf params.blockPl a b with
  | error e => rfl
  | ok idxs =>
    rw [bind_ok, bind_ok]
    have e1 : ∀ k ∈ idxs, readFile (own k) (k * params.blockPl) params.blockPl = readFile F (k * params.blockPl) params.blockPl :=
      fun k hk => readFile_congr fun x _ hx => (same k idxs hidx hk).1 x (by rw [Nat.add_mul, Nat.one_mul]; exact hx)
    rw [forEach_congr (l := idxs) (F := fun idx2 res => do
        let buf := readFile (own idx2) (idx2 * params.blockPl) params.blockPl
        let ans ← toUnits buf params.unitPl
        pure (res ++ [ans])) (G := fun idx2 res => do
        let buf := readFile F (idx2 * params.blockPl) params.blockPl
        let ans ← toUnits buf params.unitPl
        pure (res ++ [ans])) (fun k hk s => by simp only [e1 k hk])]
    congr 1
    funext blocks
    cases hn : div! params.dataL params.blockL with
    | error e => rfl
    | ok n =>
      rw [bind_ok, bind_ok]
      cases hL : idxsLOf params n with
      | error e => rfl
      | ok L =>
        rw [bind_ok, bind_ok]
        congr 1
        refine forEach_congr fun k hk s => ?_
        obtain ⟨-, hb, hd⟩ := same k idxs hidx hk
        have e2 : (if k ≠ 0 then H (readFile (before k) ((k - 1) * params.blockPl) params.blockPl) else []) =
            if k ≠ 0 then H (readFile F ((k - 1) * params.blockPl) params.blockPl) else [] := by
          by_cases hk : k = 0
          · rw [if_neg (by simp [hk]), if_neg (by simp [hk])]
          · rw [if_pos hk, if_pos hk]
            congr 1
            exact readFile_congr fun x _ hx => hb x (by
              have : (k - 1 + 1) * params.blockPl = k * params.blockPl := by rw [Nat.sub_add_cancel (by omega)]
              rw [Nat.add_mul, Nat.one_mul] at this
              omega)
        simp only [e2]
        congr 1
        generalize (if k ≠ 0 then H (readFile F ((k - 1) * params.blockPl) params.blockPl) else []) = id
        by_cases hm : params.modeL = 0
        · rw [if_pos hm, if_pos hm]
          cases hc : ((if k = 0 then pure [] else if params.cntL = 0 then longModeRandom H n id k (k / 10 + 1)
              else longModeRandom H n id k params.cntL : R (List Nat))) with
          | error e => rfl
          | ok cur =>
            rw [bind_ok, bind_ok]
            refine readBlocksLive_same hd fun i hi => ?_
            by_cases hk : k = 0
            · rw [if_pos hk] at hc; cases hc; cases hi
            · rw [if_neg hk] at hc
              by_cases h0 : params.cntL = 0
              · rw [if_pos h0] at hc; exact (C18_long_random H n k _ id cur hc).2.1 i hi
              · rw [if_neg h0] at hc; exact (C18_long_random H n k _ id cur hc).2.1 i hi
        · rw [if_neg hm, if_neg hm]
          cases hc : at! L k with
          | error e => rfl
          | ok cur =>
            rw [bind_ok, bind_ok]
            exact readBlocksLive_same hd fun i hi => idxsLOf_longOk hL k cur (at!_eq_ok.mp hc) i hi

/-- Every content during sealing agrees with the finished file as far as blocks are done. -/
theorem SealingShows.agree {H : Bytes → Bytes} (hH : ∀ x, (H x).length = 32) {params : PosPara} {p n c : Nat}
    (cfg : Config params p n c) (hL : LongModeOk params n) (hS : ShortModeOk params n c) {file iv : Bytes}
    (hlen : n * params.blockPl ≤ file.length) (hu : UnitsBelow params p n c file) {k : Nat} {f : Bytes}
    (h : SealingShows H params file (p : Int) iv n k f) {st : SealState} (hst : sealFile H params file (p : Int) iv = .ok st) :
    ∀ x < (k + 1) * params.blockPl, f[x]? = st.file[x]? := by
  intro x hx
  rcases h with ⟨b, w, h1, h2, h3, h4⟩ | ⟨st', h1, rfl⟩
  · obtain ⟨st', mid, g1, g2, -, g4, -⟩ := C96_seal_stopped H hH params p n c cfg hL hS file iv hlen hu b w h2 h3
    rw [hst] at g1
    cases g1
    rw [h4] at g2
    cases g2
    rw [g4, if_pos]
    have : (k + 1) * params.blockPl ≤ b * params.blockPl := Nat.mul_le_mul_right _ h1
    omega
  · rw [hst] at h1
    cases h1
    rfl

/-- Every content during unsealing agrees with the sealed file as far as blocks are not touched. -/
theorem UnsealingShows.agree {H : Bytes → Bytes} (hH : ∀ x, (H x).length = 32) {params : PosPara} {p n c : Nat}
    (cfg : Config params p n c) (hL : LongModeOk params n) (hS : ShortModeOk params n c) {file iv : Bytes}
    (hlen : n * params.blockPl ≤ file.length) {k : Nat} {f : Bytes}
    (h : UnsealingShows H params file (p : Int) iv n k f) : ∀ x < (k + 1) * params.blockPl, f[x]? = file[x]? := by
  intro x hx
  rcases h with rfl | ⟨m, w, h1, h2, h3, h4⟩
  · rfl
  · obtain ⟨out, mid, -, g2, -, g4⟩ := C96_unseal_stopped H hH params p n c cfg hL hS file iv hlen m w h1 h2
    rw [h4] at g2
    cases g2
    rw [g4]
    rcases h3 with h3 | ⟨h3, rfl⟩
    · have : (k + 1) * params.blockPl ≤ (n - 1 - m) * params.blockPl := Nat.mul_le_mul_right _ (by omega)
      rw [if_pos (by omega)]
    · have e : n - m = k + 1 := by omega
      rw [e]
      by_cases hx1 : x < (n - 1 - m) * params.blockPl
      · rw [if_pos hx1]
      · rw [if_neg hx1, if_neg (by omega), if_pos hx]

/-- While the file is being sealed: a block is prepared as from the finished file if it is read after it has been
sealed, and the blocks in front of it after they have been sealed.  Any selection of such blocks, prepared at any such times, unseals to the plaintext. -/
theorem C119_sealing (H : Bytes → Bytes) (hH : ∀ x, (H x).length = 32) (params : PosPara) (p n c : Nat)
    (cfg : Config params p n c) (hL : LongModeOk params n) (hS : ShortModeOk params n c) (hr : 0 < params.sealRounds)
    (file iv : Bytes) (hlen : n * params.blockPl ≤ file.length) (hu : UnitsBelow params p n c file)
    (idxs : List Nat) (hne : idxs ≠ []) (hidx : ∀ k ∈ idxs, k < n) (own before : Nat → Bytes) (dep : Nat → Nat → Bytes)
    (ho : ∀ k ∈ idxs, SealingShows H params file (p : Int) iv n k (own k))
    (hb : ∀ k ∈ idxs, k ≠ 0 → SealingShows H params file (p : Int) iv n (k - 1) (before k))
    (hd : ∀ k ∈ idxs, k ≠ 0 → ∀ m, SealingShows H params file (p : Int) iv n (k - 1) (dep k m)) :
    ∃ st, sealFile H params file (p : Int) iv = .ok st ∧
      (∀ k ∈ idxs, singleUnsealPrepareLive (own k) (before k) (dep k) H params k = singleUnsealPrepare H params st.file k) ∧
      ((∀ v ∈ st.log, v ≠ 0) → ∃ (pr : Nat → Prepared) (outs : List (List Bytes)),
        (∀ k ∈ idxs, singleUnsealPrepareLive (own k) (before k) (dep k) H params k = .ok (pr k)) ∧
        batchUnseal H params idxs (idxs.map (fun k => (pr k).block)) (idxs.map (fun k => (pr k).beforeId))
          (idxs.map (fun k => (pr k).dependBlocks)) (p : Int) iv = .ok outs ∧
        outs.length = idxs.length ∧
        ∀ (i : Nat) (k : Nat) (out : List Bytes), idxs[i]? = some k → outs[i]? = some out →
          out.flatten = readFile file (k * params.blockPl) params.blockPl) := by
  obtain ⟨st, hst, -⟩ := C95_seal_exact (fun _ => params.blockPl) (fun _ _ => params.blockPl) H hH params p n c cfg hL hS file iv hlen hu
    (sealingOf H params p c iv (longOf H params n) (shortOf H params n c)) ⟨rfl, rfl, rfl, rfl, rfl, rfl, rfl, rfl, rfl⟩
  rw [sealFileShort_full (fun _ => Nat.le_refl _) (fun _ _ => Nat.le_refl _)] at hst
  have key : ∀ k ∈ idxs, singleUnsealPrepareLive (own k) (before k) (dep k) H params k = singleUnsealPrepare H params st.file k :=
    fun k hk => C119_same H params k st.file _ _ _ ((ho k hk).agree hH cfg hL hS hlen hu hst)
      (fun x hx => (hb k hk (pos_of_lt_mul hx)).agree hH cfg hL hS hlen hu hst x (by
        rw [Nat.sub_add_cancel (Nat.pos_of_ne_zero (pos_of_lt_mul hx))]; exact hx))
      (fun m x hx => (hd k hk (pos_of_lt_mul hx) m).agree hH cfg hL hS hlen hu hst x (by
        rw [Nat.sub_add_cancel (Nat.pos_of_ne_zero (pos_of_lt_mul hx))]; exact hx))
  refine ⟨st, hst, key, fun hlog => ?_⟩
  obtain ⟨pr, outs, h1, h2, h3, h4⟩ := C03_random_access H hH params p n c cfg hr file iv hlen hu st hst hlog idxs hne hidx
  exact ⟨pr, outs, fun k hk => (key k hk).trans (h1 k hk), h2, h3, fun i k out hi ho => (h4 i k out hi ho).1⟩

theorem proverRespondLive_same {own before : Nat → Bytes} {dep : Nat → Nat → Bytes} {H : Bytes → Bytes} {params : PosPara}
    {F : Bytes} {indices : List Nat} (h : ∀ k ∈ indices, singleUnsealPrepareLive (own k) (before k) (dep k) H params k =
      singleUnsealPrepare H params F k) (tree : MerkleTree) (r : UInt8) :
    proverRespondLive own before dep H params tree r indices = proverRespond H params F tree r indices := by
  unfold proverRespondLive proverRespond
  rw [forEach_congr fun k hk s => ?_]
  simp only [h k hk]

/-- While a file is being unsealed: a challenge is answered as from the file before, if every challenged block is
read before `unseal` has reached it, and the blocks in front of it before `unseal` has reached the one next to it.  If the file was sealed honestly the round is accepted. -/
theorem C119_unsealing (H Hs : Bytes → Bytes) (hH : ∀ x, (H x).length = 32) (params : PosPara) (p n c : Nat)
    (cfg : Config params p n c) (hL : LongModeOk params n) (hS : ShortModeOk params n c)
    (file iv : Bytes) (hlen : n * params.blockPl ≤ file.length) (indices : List Nat)
    (own before : Nat → Bytes) (dep : Nat → Nat → Bytes)
    (ho : ∀ k ∈ indices, UnsealingShows H params file (p : Int) iv n k (own k))
    (hb : ∀ k ∈ indices, k ≠ 0 → UnsealingShows H params file (p : Int) iv n (k - 1) (before k))
    (hd : ∀ k ∈ indices, k ≠ 0 → ∀ m, UnsealingShows H params file (p : Int) iv n (k - 1) (dep k m)) :
    (∀ k ∈ indices, singleUnsealPrepareLive (own k) (before k) (dep k) H params k = singleUnsealPrepare H params file k) ∧
    (∀ (tree : MerkleTree) (r : UInt8),
      proverRespondLive own before dep H params tree r indices = proverRespond H params file tree r indices) ∧
    ∀ (origin padded pubdata : Bytes) (st : SealState) (leaves : List Bytes) (tree : MerkleTree) (root : Bytes) (r : UInt8),
      Honest H Hs params p n c origin padded iv pubdata st leaves tree root → file = st.file →
      indices.Pairwise (· < ·) → indices ≠ [] → (∀ k ∈ indices, k < n) →
      ∃ resp, proverRespondLive own before dep H params tree r indices = .ok resp ∧
        (∀ sched, verifierCheck H Hs params origin pubdata leaves root r indices resp 0 sched = .ok (some ())) ∧
        ∀ workers sched outs, 0 < workers →
          batchUnsealParallel H params indices resp.blocks resp.beforeIds resp.dependBlocks (p : Int) iv workers sched =
            .ok (some outs) →
          verifierCheck H Hs params origin pubdata leaves root r indices resp workers sched = .ok (some ()) := by
  have key : ∀ k ∈ indices, singleUnsealPrepareLive (own k) (before k) (dep k) H params k = singleUnsealPrepare H params file k :=
    fun k hk => C119_same H params k file _ _ _ ((ho k hk).agree hH cfg hL hS hlen)
      (fun x hx => (hb k hk (pos_of_lt_mul hx)).agree hH cfg hL hS hlen x (by
        rw [Nat.sub_add_cancel (Nat.pos_of_ne_zero (pos_of_lt_mul hx))]; exact hx))
      (fun m x hx => (hd k hk (pos_of_lt_mul hx) m).agree hH cfg hL hS hlen x (by
        rw [Nat.sub_add_cancel (Nat.pos_of_ne_zero (pos_of_lt_mul hx))]; exact hx))
  refine ⟨key, proverRespondLive_same key, fun origin padded pubdata st leaves tree root r hon hf hs hne hlt => ?_⟩
  obtain ⟨resp, h1, h2, h3⟩ := C04_round hon r indices hs hne hlt
  refine ⟨resp, (proverRespondLive_same key tree r).trans (hf ▸ h1), h2, fun workers sched outs hw hout => ?_⟩
  rcases (h3 workers hw).1 sched with h | ⟨h, -⟩
  · exact h
  · rw [hout] at h
    cases h

/-- Is block `k`, prepared from these contents, unsealed to block `k` of the padded file? -/
def toyRight (padded own before dep : Bytes) (k : Nat) : Bool :=
  match singleUnsealPrepareLive own before (fun _ => dep) toyHash (toyParams 3 1 0 0 1 1 2) k with
  | .ok pr => (match batchUnseal toyHash (toyParams 3 1 0 0 1 1 2) [k] [pr.block] [pr.beforeId] [pr.dependBlocks] P_512 [1, 2, 3] with
    | .ok outs => decide (outs = [[readFile padded (k * 64) 64]])
    | .error _ => false)
  | .error _ => false

/-- The padded file, the sealed file and contents on the way: sealing after one block, unsealing after one and two blocks. -/
def toyContents : R (Bytes × Bytes × Bytes × Bytes × Bytes) := do
  let padded ← copyAndPad (toyFile 189) 189 63
  let st ← sealFile toyHash (toyParams 3 1 0 0 1 1 2) padded P_512 [1, 2, 3]
  let half ← sealStopped toyHash (toyParams 3 1 0 0 1 1 2) padded P_512 [1, 2, 3] 1 0
  let mid ← unsealStopped toyHash (toyParams 3 1 0 0 1 1 2) st.file P_512 [1, 2, 3] 1 0
  let late ← unsealStopped toyHash (toyParams 3 1 0 0 1 1 2) st.file P_512 [1, 2, 3] 2 0
  pure (padded, st.file, half, mid, late)

/-- The condition on the times is needed.  Three blocks of one unit.  During sealing, when only block 0 has been
sealed, block 0 is answered correctly but block 1 is not.  During unsealing, when block 2 has been unsealed, block 1
is answered correctly but block 2 is not.  Block 2 read in time and the block before it while it is still sealed: correct; the block
before it read after it has been unsealed: wrong. -/
theorem C119_out_of_time : (match toyContents with
    | .ok (p, s, h, m, l) => toyRight p h h h 0 && !toyRight p h h h 1 && toyRight p m m m 1 && !toyRight p m m m 2 &&
        toyRight p s m m 2 && !toyRight p s l s 2
    | _ => false) = true := by decide +kernel

/-- Meets the hypotheses of `C119_same`, `C119_prepare`, `C119_range`, `C119_sealing` and `C119_unsealing`: contents of the file during
sealing and unsealing with blocks half written, from which the reads for one block are served. -/
example : (match copyAndPad (toyFile 189) 189 63 with
    | .ok padded => (match sealFile toyHash (toyParams 3 1 0 0 1 1 2) padded P_512 [1, 2, 3] with
      | .ok st => (match sealStopped toyHash (toyParams 3 1 0 0 1 1 2) padded P_512 [1, 2, 3] 2 17,
          unsealStopped toyHash (toyParams 3 1 0 0 1 1 2) st.file P_512 [1, 2, 3] 0 20 with
        | .ok half, .ok torn => decide (half ≠ padded ∧ half ≠ st.file ∧ torn ≠ st.file ∧
            (∀ v ∈ st.log, v ≠ 0) ∧ toyRight padded half st.file torn 1 = true ∧ toyRight padded st.file torn half 1 = true)
        | _, _ => false)
      | _ => false)
    | _ => false) = true := by decide +kernel

end PoS
