import Verif.Model.Parallel
import Verif.Proofs.Verifier

/-
Lemmas about the interleaved execution of the parallel verifier.
-/

namespace PoS

/-- What the sequential algorithm computes for block `i`. -/
def ParEnv.task (e : ParEnv) (blocks : List (List Bytes)) (i : Nat) : R (List Bytes) :=
  batchBlock e.H e.params e.key e.iv e.idxsS e.blocksIdx e.beforeIds e.dependBlocks i blocks

/-- One unit of task `i`. -/
def ParEnv.unit (e : ParEnv) (i unitCnt idx2 j : Nat) (cur : List Bytes) : R (List Bytes) :=
  parUnit e.H e.params e.key e.iv e.idxsS e.beforeIds e.dependBlocks unitCnt i idx2 j cur

theorem ParEnv.task_eq (e : ParEnv) {blocks : List (List Bytes)} {i idx2 : Nat} {o : List Bytes}
    (ho : blocks[i]? = some o) (hi : e.blocksIdx[i]? = some idx2) :
    e.task blocks i = forUp e.params.sealRounds (fun _ s =>
      forUp o.length (fun j s => e.unit i o.length idx2 j s) s) o := by
  unfold ParEnv.task batchBlock
  rw [at!_eq_ok.mpr hi, bind_ok, at!_eq_ok.mpr ho, bind_ok]
  rfl

theorem ParEnv.unit_length (e : ParEnv) {i unitCnt idx2 j : Nat} {cur cur' : List Bytes}
    (h : e.unit i unitCnt idx2 j cur = .ok cur') : cur'.length = cur.length := by
  unfold ParEnv.unit parUnit at h
  simp only [bind_eq_ok] at h
  obtain ⟨_, -, _, -, _, -, _, -, _, -, _, -, h⟩ := h
  obtain ⟨-, rfl⟩ := put!_eq_ok.mp h
  simp

/-- Invariant of one task: `blk` is the current shared entry. -/
def TaskInv (e : ParEnv) (orig : List (List Bytes)) (i : Nat) (blk : Option (List Bytes)) : Phase → Prop
  | .waiting => blk = orig[i]?
  | .working idx2 cur r j => blk = orig[i]? ∧ ∃ o s1, orig[i]? = some o ∧ e.blocksIdx[i]? = some idx2 ∧
      cur.length = o.length ∧ s1.length = o.length ∧ j ≤ o.length ∧
      forUp r (fun _ s => forUp o.length (fun j s => e.unit i o.length idx2 j s) s) o = .ok s1 ∧
      forUp j (fun j s => e.unit i o.length idx2 j s) s1 = .ok cur ∧
      r ≤ e.params.sealRounds ∧ (r = e.params.sealRounds → j = 0)
  | .done => ∃ b, blk = some b ∧ e.task orig i = .ok b
  | .crashed => blk = orig[i]? ∧ ∃ err, e.task orig i = .error err

/-- Invariant of the whole pool. -/
structure ParInv (e : ParEnv) (orig : List (List Bytes)) (st : PState) : Prop where
  blocks : st.blocks.length = orig.length
  phase : st.phase.length = orig.length
  task : ∀ i ph, st.phase[i]? = some ph → TaskInv e orig i st.blocks[i]? ph

theorem parInv_init (e : ParEnv) (orig : List (List Bytes)) :
    ParInv e orig ⟨orig, List.replicate orig.length .waiting⟩ where
  blocks := rfl
  phase := by simp
  task := by
    intro i ph h
    obtain ⟨hi, rfl⟩ := List.getElem?_eq_some_iff.mp h
    simp only [List.getElem_replicate]
    rfl

/-- Replacing the phase of one task. -/
theorem ParInv.set {e : ParEnv} {orig : List (List Bytes)} {st : PState} (h : ParInv e orig st) {i : Nat}
    (hi : i < orig.length) {ph : Phase} (ht : TaskInv e orig i st.blocks[i]? ph) :
    ParInv e orig { st with phase := st.phase.set i ph } where
  blocks := h.blocks
  phase := by simpa using h.phase
  task := by
    intro k ph' hk
    by_cases e1 : i = k
    · subst e1
      simp only [List.getElem?_set_self (by rw [h.phase]; exact hi : i < st.phase.length)] at hk
      cases hk
      exact ht
    · simp only [List.getElem?_set_ne e1] at hk
      exact h.task k ph' hk

theorem parStep_inv {e : ParEnv} {orig : List (List Bytes)} {workers i : Nat} {st st' : PState}
    (hinv : ParInv e orig st) (h : parStep e workers i st = some st') : ParInv e orig st' := by
  unfold parStep at h
  cases hph : st.phase[i]? with
  | none => rw [hph] at h; cases h
  | some ph =>
    rw [hph] at h
    have hi : i < orig.length := by
      rw [← hinv.phase]; exact (List.getElem?_eq_some_iff.mp hph).1
    have ht := hinv.task i ph hph
    cases ph with
    | done => cases h
    | crashed => cases h
    | waiting =>
      simp only at h
      split at h
      · have hblk : st.blocks[i]? = orig[i]? := ht
        have horig : orig[i]? = some orig[i] := List.getElem?_eq_getElem hi
        cases hidx : e.blocksIdx[i]? with
        | none =>
          have : at! e.blocksIdx i = .error .index := by unfold at!; rw [hidx]
          rw [this] at h
          cases h
          refine hinv.set hi ⟨hblk, .index, ?_⟩
          unfold ParEnv.task batchBlock
          rw [this]; rfl
        | some idx2 =>
          rw [at!_eq_ok.mpr hidx, bind_ok, at!_eq_ok.mpr (hblk.trans horig), bind_ok] at h
          cases h
          refine hinv.set hi ⟨hblk, orig[i], orig[i], horig, hidx, rfl, rfl, Nat.zero_le _, rfl, rfl,
            Nat.zero_le _, fun _ => rfl⟩
      · cases h
    | working idx2 cur r j =>
      obtain ⟨hblk, o, s1, ho, hidx, hcl, hsl, hj, hr1, hr2, hrle, hreq⟩ := ht
      have htask := e.task_eq ho hidx
      simp only at h
      split at h
      · next hr =>
        split at h
        · next hjl =>
          rw [hcl] at hjl
          cases hu : parUnit e.H e.params e.key e.iv e.idxsS e.beforeIds e.dependBlocks cur.length i idx2 j cur with
          | ok cur' =>
            rw [hu] at h
            cases h
            have hu' : e.unit i o.length idx2 j cur = .ok cur' := by rw [← hcl]; exact hu
            refine hinv.set hi ⟨hblk, o, s1, ho, hidx, ?_, hsl, by omega, hr1, ?_, hrle, by omega⟩
            · rw [e.unit_length hu', hcl]
            · rw [forUp_succ, hr2, bind_ok, hu']
          | error err =>
            rw [hu] at h
            cases h
            have hu' : e.unit i o.length idx2 j cur = .error err := by rw [← hcl]; exact hu
            refine hinv.set hi ⟨hblk, err, ?_⟩
            rw [htask]
            refine forUp_error_of hr hr1 ?_
            exact forUp_error_of hjl hr2 hu'
        · next hjl =>
          cases h
          have : j = o.length := by omega
          subst this
          refine hinv.set hi ⟨hblk, o, cur, ho, hidx, hcl, hcl, Nat.zero_le _, ?_, rfl, hr, fun _ => rfl⟩
          rw [forUp_succ, hr1, bind_ok, hr2]
      · next hr =>
        cases h
        have hre : r = e.params.sealRounds := by omega
        have hj0 := hreq hre
        subst hj0
        rw [forUp_zero] at hr2
        cases hr2
        rw [hre] at hr1
        constructor
        · simpa using hinv.blocks
        · simpa using hinv.phase
        · intro k ph' hk
          by_cases e1 : i = k
          · subst e1
            simp only [List.getElem?_set_self (by rw [hinv.phase]; exact hi : i < st.phase.length)] at hk
            cases hk
            refine ⟨cur, ?_, ?_⟩
            · simp only [List.getElem?_set_self (by rw [hinv.blocks]; exact hi : i < st.blocks.length)]
            · rw [htask, hr1]
          · simp only [List.getElem?_set_ne e1] at hk ⊢
            exact hinv.task k ph' hk

theorem parRun_inv {e : ParEnv} {orig : List (List Bytes)} {workers : Nat} (sched : List Nat) {st st' : PState}
    (hinv : ParInv e orig st) (h : parRun e workers sched st = some st') : ParInv e orig st' := by
  induction sched generalizing st with
  | nil => cases h; exact hinv
  | cons i is ih =>
    unfold parRun at h
    cases hs : parStep e workers i st with
    | none => rw [hs] at h; cases h
    | some s => rw [hs] at h; exact ih (parStep_inv hinv hs) h

/-! ### Termination and progress -/

/-- Steps a task can still make. -/
def Phase.weight (rounds len : Nat) : Phase → Nat
  | .waiting => rounds * (len + 1) + 2
  | .working _ _ r j => (rounds - r) * (len + 1) - j + 1
  | .done => 0
  | .crashed => 0

/-- Sum of the weights of the tasks from `k` on. -/
def totalWeight (rounds : Nat) (lens : List Nat) (ph : List Phase) : Nat :=
  (List.zipWith (fun l p => p.weight rounds l) lens ph).sum

theorem totalWeight_set (rounds : Nat) (lens : List Nat) (ph : List Phase) (i : Nat) (l : Nat) (p q : Phase)
    (hl : lens[i]? = some l) (hp : ph[i]? = some p) (hlt : q.weight rounds l < p.weight rounds l) :
    totalWeight rounds lens (ph.set i q) < totalWeight rounds lens ph := by
  induction lens generalizing ph i with
  | nil => simp at hl
  | cons a lens ih =>
    cases ph with
    | nil => simp at hp
    | cons b ph =>
      cases i with
      | zero =>
        simp only [List.getElem?_cons_zero, Option.some.injEq] at hl hp
        subst hl hp
        simp only [totalWeight, List.set_cons_zero, List.zipWith_cons_cons, List.sum_cons]
        omega
      | succ i =>
        simp only [List.getElem?_cons_succ] at hl hp
        have := ih ph i hl hp
        simp only [totalWeight, List.set_cons_succ, List.zipWith_cons_cons, List.sum_cons] at this ⊢
        omega

theorem parStep_weight {e : ParEnv} {orig : List (List Bytes)} {workers i : Nat} {st st' : PState}
    (hinv : ParInv e orig st) (h : parStep e workers i st = some st') :
    totalWeight e.params.sealRounds (orig.map List.length) st'.phase <
      totalWeight e.params.sealRounds (orig.map List.length) st.phase := by
  unfold parStep at h
  cases hph : st.phase[i]? with
  | none => rw [hph] at h; cases h
  | some ph =>
    rw [hph] at h
    have hi : i < orig.length := by
      rw [← hinv.phase]; exact (List.getElem?_eq_some_iff.mp hph).1
    have hl : (orig.map List.length)[i]? = some (orig[i]).length := by
      rw [List.getElem?_map, List.getElem?_eq_getElem hi]; rfl
    have ht := hinv.task i ph hph
    have key : ∀ q : Phase, q.weight e.params.sealRounds (orig[i]).length < ph.weight e.params.sealRounds (orig[i]).length →
        totalWeight e.params.sealRounds (orig.map List.length) (st.phase.set i q) <
          totalWeight e.params.sealRounds (orig.map List.length) st.phase :=
      fun q hq => totalWeight_set _ _ _ i _ ph q hl hph hq
    cases ph with
    | done => cases h
    | crashed => cases h
    | waiting =>
      simp only at h
      split at h
      · split at h
        · cases h
          apply key
          simp only [Phase.weight, Nat.sub_zero]; omega
        · cases h
          apply key
          simp only [Phase.weight]; omega
      · cases h
    | working idx2 cur r j =>
      obtain ⟨hblk, o, s1, ho, hidx, hcl, hsl, hj, hr1, hr2, hrle, hreq⟩ := ht
      have hoi : orig[i] = o := by
        rw [List.getElem?_eq_getElem hi] at ho; exact Option.some.inj ho
      rw [hoi] at key
      simp only at h
      split at h
      · next hr =>
        have hm : o.length + 1 ≤ (e.params.sealRounds - r) * (o.length + 1) :=
          Nat.le_mul_of_pos_left _ (by omega)
        split at h
        · next hjl =>
          split at h
          · cases h
            apply key
            simp only [Phase.weight]; omega
          · cases h
            apply key
            simp only [Phase.weight]; omega
        · next hjl =>
          cases h
          apply key
          simp only [Phase.weight]
          have hje : j = o.length := by omega
          subst hje
          have : (e.params.sealRounds - r) * (o.length + 1) =
              (e.params.sealRounds - (r + 1)) * (o.length + 1) + (o.length + 1) := by
            rw [← Nat.succ_mul]
            congr 1
            omega
          rw [this]
          omega
      · cases h
        apply key
        simp only [Phase.weight]; omega

theorem parRun_length {e : ParEnv} {orig : List (List Bytes)} {workers : Nat} (sched : List Nat) {st st' : PState}
    (hinv : ParInv e orig st) (h : parRun e workers sched st = some st') :
    sched.length + totalWeight e.params.sealRounds (orig.map List.length) st'.phase ≤
      totalWeight e.params.sealRounds (orig.map List.length) st.phase := by
  induction sched generalizing st with
  | nil => cases h; simp
  | cons i is ih =>
    unfold parRun at h
    cases hs : parStep e workers i st with
    | none => rw [hs] at h; cases h
    | some s =>
      rw [hs] at h
      have h1 := ih (parStep_inv hinv hs) h
      have h2 := parStep_weight hinv hs
      rw [List.length_cons]
      omega

/-- No deadlock: while a task is unfinished some task can make a step. -/
theorem parStep_progress (e : ParEnv) {workers : Nat} (hw : 0 < workers) (st : PState)
    (h : ¬ st.phase.all Phase.finished = true) : ∃ i st', parStep e workers i st = some st' := by
  by_cases hb : ∃ p ∈ st.phase, p.busy = true
  · obtain ⟨p, hp, hbusy⟩ := hb
    obtain ⟨i, hi, rfl⟩ := List.getElem_of_mem hp
    have hph : st.phase[i]? = some st.phase[i] := List.getElem?_eq_getElem hi
    refine ⟨i, ?_⟩
    unfold parStep
    rw [hph]
    cases hpp : st.phase[i] with
    | waiting => rw [hpp] at hbusy; cases hbusy
    | done => rw [hpp] at hbusy; cases hbusy
    | crashed => rw [hpp] at hbusy; cases hbusy
    | working idx2 cur r j =>
      simp only
      split
      · split
        · split
          · exact ⟨_, rfl⟩
          · exact ⟨_, rfl⟩
        · exact ⟨_, rfl⟩
      · exact ⟨_, rfl⟩
  · have hnone : st.phase.filter Phase.busy = [] := by
      rw [List.filter_eq_nil_iff]
      intro p hp hbusy
      exact hb ⟨p, hp, hbusy⟩
    simp only [List.all_eq_true, not_forall] at h
    obtain ⟨p, hp, hfin⟩ := h
    obtain ⟨i, hi, rfl⟩ := List.getElem_of_mem hp
    have hph : st.phase[i]? = some st.phase[i] := List.getElem?_eq_getElem hi
    have hnb : ¬ (st.phase[i]).busy = true := fun hbusy => hb ⟨_, hp, hbusy⟩
    refine ⟨i, ?_⟩
    unfold parStep
    rw [hph]
    cases hpp : st.phase[i] with
    | done => rw [hpp] at hfin; exact absurd rfl hfin
    | crashed => rw [hpp] at hfin; exact absurd rfl hfin
    | working idx2 cur r j => rw [hpp] at hnb; exact absurd rfl hnb
    | waiting =>
      simp only
      rw [hnone, if_pos (by simpa using hw)]
      split
      · exact ⟨_, rfl⟩
      · exact ⟨_, rfl⟩

theorem parRun_append (e : ParEnv) (workers : Nat) (a b : List Nat) (st : PState) :
    parRun e workers (a ++ b) st = (parRun e workers a st).bind (parRun e workers b) := by
  induction a generalizing st with
  | nil => rfl
  | cons i a ih =>
    simp only [List.cons_append, parRun]
    cases parStep e workers i st with
    | none => rfl
    | some s => exact ih s

/-- Every started execution can be completed. -/
theorem parRun_complete {e : ParEnv} {orig : List (List Bytes)} {workers : Nat} (hw : 0 < workers) (m : Nat)
    (st : PState) (hinv : ParInv e orig st)
    (hm : totalWeight e.params.sealRounds (orig.map List.length) st.phase ≤ m) :
    ∃ sched st', parRun e workers sched st = some st' ∧ st'.phase.all Phase.finished = true := by
  induction m generalizing st with
  | zero =>
    by_cases h : st.phase.all Phase.finished = true
    · exact ⟨[], st, rfl, h⟩
    · obtain ⟨i, s, hs⟩ := parStep_progress e hw st h
      have := parStep_weight hinv hs
      omega
  | succ m ih =>
    by_cases h : st.phase.all Phase.finished = true
    · exact ⟨[], st, rfl, h⟩
    · obtain ⟨i, s, hs⟩ := parStep_progress e hw st h
      have := parStep_weight hinv hs
      obtain ⟨sched, st', h1, h2⟩ := ih s (parStep_inv hinv hs) (by omega)
      refine ⟨i :: sched, st', ?_, h2⟩
      unfold parRun
      rw [hs]
      exact h1

/-- The final content: the sequential result where it exists, the submitted block elsewhere. -/
theorem parInv_final {e : ParEnv} {orig : List (List Bytes)} {st : PState} (hinv : ParInv e orig st)
    (hfin : st.phase.all Phase.finished = true) (i : Nat) (hi : i < orig.length) :
    st.blocks[i]? = some (match e.task orig i with
      | .ok b => b
      | .error _ => orig[i]) := by
  have hip : i < st.phase.length := by rw [hinv.phase]; exact hi
  have ht := hinv.task i st.phase[i] (List.getElem?_eq_getElem hip)
  have hf := (List.all_eq_true.mp hfin) _ (List.getElem_mem hip)
  cases hpp : st.phase[i] with
  | waiting => rw [hpp] at hf; cases hf
  | working idx2 cur r j => rw [hpp] at hf; cases hf
  | done =>
    rw [hpp] at ht
    obtain ⟨b, h1, h2⟩ := ht
    rw [h1, h2]
  | crashed =>
    rw [hpp] at ht
    obtain ⟨h1, err, h2⟩ := ht
    rw [h1, h2, List.getElem?_eq_getElem hi]

end PoS
