import Verif.Cases.Protocol
import Verif.Properties.LiveVerdict

/-
C119_verdict applied to the concrete world: block 2 is read after unsealing has reached it, everything
else before.
-/

namespace PoS.World

example := C119_verdict toyHash toyHash (by w) (by w) wp wq 3 2 (by w) (by w) (by w) (by w) wo wpub wiv (by w) wst.ids (by w)
  wm.1 wm.2.1 wm.2.2 (by w) 7 [0, 2] (by w) (by w) (by w) (fun k => if k = 2 then wf else wst.file) (fun _ => wst.file)
  (fun _ _ => wst.file) _ (fun _ => rfl) _ (fun _ _ => rfl)
  (sealingOf toyHash wp wq 2 wiv (longOf toyHash wp 2) (shortOf toyHash wp 2 2))
  (sealingOf toyHash wp wq 2 wiv (longOf toyHash wp 3) (shortOf toyHash wp 3 2))
  ⟨rfl, rfl, rfl, rfl, rfl, rfl, rfl, rfl, rfl⟩ ⟨rfl, rfl, rfl, rfl, rfl, rfl, rfl, rfl, rfl⟩ _ (fun _ _ => Iff.rfl)

end PoS.World
