import Verif.Cases.TestRuns
import Verif.Properties.SingleLive

/-
The C130 theorems applied to ten blocks of one unit that are read while block 9 is written.
-/

namespace PoS.World

def thalf : Bytes := (sealStopped toyHash tp tf (wq : Int) wiv 9 5).toOption.getD []

theorem thalf_eq : sealStopped toyHash tp tf (wq : Int) wiv 9 5 = .ok thalf := ok_of_isSome (by decide +kernel)

theorem tL : LongModeOk tp 10 :=
  (hashModes_ok (n := 10) (c := 1) rfl rfl (Or.inl (by norm_num)) (Or.inl (by norm_num))).1
theorem tS1 : ShortModeOk tp 1 1 :=
  (hashModes_ok (n := 1) (c := 1) rfl rfl (Or.inl (by norm_num)) (Or.inl (by norm_num))).2

def town (k : Nat) : Bytes := if k = 9 then tst.file else thalf

theorem tst_eq : sealFile toyHash tp tf (wq : Int) wiv = .ok tst := ok_of_isSome (by decide +kernel)

theorem shows_half (k : Nat) (h : k < 9) : SealingShows toyHash tp tf (wq : Int) wiv 10 k thalf :=
  .inl ⟨9, 5, h, by norm_num, by decide, thalf_eq⟩

example := C130_verdict toyHash (by w) tp wq 10 1 tcfg tL tS1 (by w) wpub wiv (by w) town (fun _ => thalf) (fun _ _ => thalf)
  (fun _ => to_) _ (fun _ => rfl) _ (fun _ _ => rfl)
  (sealingOf toyHash tp wq 1 wiv (longOf toyHash tp 1) (shortOf toyHash tp 1 1)) ⟨rfl, rfl, rfl, rfl, rfl, rfl, rfl, rfl, rfl⟩
example := C130_same toyHash tp (by w) wpub tst.file to_ (fun _ => tst.file) (fun _ => tst.file) (fun _ _ => tst.file)
  (fun _ _ _ _ => rfl) (fun _ _ _ _ => rfl) (fun _ _ _ _ _ => rfl) none []
example := C130_old_initial_vector toyHash (by w) tp wq 10 1 tcfg tL tS1 tS (by w) (by w) (by decide +kernel) to_ tf wiv wiv wpub
  (by w) (by w) (ok_of_isSome (by decide +kernel)) tst tst_eq (by w) (by w) town (fun _ => thalf) (fun _ _ => thalf)
  (fun k hk => by
    unfold town
    by_cases h : k = 9
    · rw [if_pos h]; exact .inr ⟨tst, tst_eq, rfl⟩
    · rw [if_neg h]; exact shows_half k (by omega))
  (fun k hk h0 => shows_half _ (by omega)) (fun k hk h0 _ => shows_half _ (by omega))
  (sealingOf toyHash tp wq 1 wiv (longOf toyHash tp 1) (shortOf toyHash tp 1 1)) ⟨rfl, rfl, rfl, rfl, rfl, rfl, rfl, rfl, rfl⟩

end PoS.World
