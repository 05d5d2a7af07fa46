import Verif.Cases.World
import Verif.Properties.Interrupt
import Verif.Properties.Layers
import Verif.Properties.Loss
import Verif.Properties.Replica
import Verif.Properties.Binding
import Verif.Properties.Rounds
import Verif.Properties.Columns
import Verif.Properties.Update
import Verif.Properties.Unsealing
import Verif.Properties.Decoding

/-
The theorems about sealing and unsealing applied to the concrete world, hypothesis by hypothesis.
-/

namespace PoS.World

/-! ### Storage, unsealing, retrieval -/

example := C01_round_trip toyHash (by w) wp wq 3 2 (by w) (by w) wo (by w) wiv wf wst (by w) (by w) (by w)
example := C02_seal_total toyHash (by w) wp wq 3 2 (by w) (by w) (by w) (by w) (by w) wf wiv (by w) (by w)
example := C57_unseal_total toyHash (by w) wp wq 3 2 (by w) (by w) (by w) (by w) (by w) wf wiv
example := C64_seal_exact toyHash (by w) wp wq 3 2 (by w) (by w) (by w) wf wiv (by w) (by w) wD (by w)
example := C85_encodings toyHash (by w) wp wq 3 2 (by w) (by w) (by w) wf wiv (by w) (by w) wD (by w)
example := C85_retrieval toyHash (by w) wp wq 3 2 (by w) (by w) (by w) (by w) wo wiv wf (by w) (by w) wD (by w) (by w)
example := C86_first_round toyHash (by w) wp wq 3 2 (by w) (by w) wo wiv wf (by w) (by w) wD (by w) [] wiv 2 1 (by w) (by w)
example := C86_one_round toyHash (by w) (by w) vp wq 3 2 (by w) (by w) (by w) (by w) (by w) (by w) wo wiv (by w)
example := C66_causal toyHash (by w) wp wq 3 2 (by w) (by w) (by w) wf wf2 wiv (by w) (by w) (by w) (by w) 1 (by w) (by w)
  wst wst2 (by w) (by w)

/-! ### Stopped runs, layers, loss -/

example := C96_unseal_stopped toyHash (by w) wp wq 3 2 (by w) (by w) (by w) wst.file wiv (by w) 1 20 (by w) (by w)
example := C96_seal_stopped toyHash (by w) wp wq 3 2 (by w) (by w) (by w) wf wiv (by w) (by w) 1 20 (by w) (by w)
example := C96_unseal_call toyHash wp 3 2 (by w) (by w) (by w) (by w) (by w) (by w) wst.file wiv (wq : Int)
example := C92_loss_is_local toyHash (by w) wp wq 3 2 (by w) (by w) (by w) (by w) wf wiv (by w) (by w) wD (by w)
example := C92_one_round_exact toyHash (by w) vp wq 3 2 (by w) (by w) (by w) (by w) (by w) (by w) wf wiv (by w) (by w) vD (by w)
example := C92_at_most toyHash (by w) wp wq 3 2 (by w) (by w) (by w) (by w) wf wiv (by w) (by w)
example := C92_retrieval_and_rounds toyHash toyHash (by w) (by w) wp wq 3 2 (by w) (by w) (by w) (by w) wo wpub wiv (by w) (by w)
  wf wst (by w) (by w) wm.1 wm.2.1 wm.2.2 (by w) wD (by w)

/-! ### Replicas, binding, rounds -/

example := C87_unseal toyHash (by w) wp wq 3 2 (by w) (by w) (by w) wst.file wiv [9] (by w)
example := C87_recover toyHash (by w) wp wq 3 2 (by w) (by w) (by w) (by w) wo wiv [9] wf (by w) wst (by w) (by w) (by w)
example := C121_identifiers toyHash (by w) wp wq 3 2 (by w) (by w) (by w) wo wo2 wf wf2 wiv (by w) (by w) (by w) (by w)
  wst wst2 (by w) (by w) (by w) (by w) (by w)
example := C121_one_round toyHash (by w) (by w) vp wq 3 2 (by w) (by w) (by w) (by w) (by w) wo wo2 wiv (by w) (by w) (by w)
example := C125_rounds toyHash (by w) wp wq 3 2 (by w) (by w) (by w) (by w) wf wiv (by w) (by w) wD (by w) _ rfl wst (by w) (by w) 1
example := C125_first_block toyHash (by w) wp wq 3 2 (by w) (by w) (by w) (by w) (by w) wf wiv (by w) (by w) wst (by w) (by w) 1 (by w)
example := C125_verdict toyHash toyHash (by w) (by w) wp wq 3 2 (by w) (by w) (by w) (by w) wo wf wpub wiv (by w) (by w) (by w)
  wD (by w) _ rfl wst (by w) (by w) wm.1 wm.2.1 wm.2.2 (by w) 1 7 [0, 2] (by w) (by w) (by w)

end PoS.World
