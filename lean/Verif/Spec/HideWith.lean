/-
Specification vocabulary for adaptive processors that do not use some of the signals.
-/
import Verif.Model.Adaptive
import Verif.Model.Array
namespace Verif

/-- What the method `prepare` of the processor does does not depend on the signals of `hid`. -/
def PrepIgnores {R P : Type} (hid : String → Bool) (prep : P → Sigs R → Int → Except PyErr (P × Sigs R)) : Prop :=
  ∀ x S S' i x1 S1, (∀ k, hid k = false → S k = S' k) → prep x S i = .ok (x1, S1) →
    ∃ S1', prep x S' i = .ok (x1, S1') ∧ ∀ k, hid k = false → S1 k = S1' k

/-- The simulation that ends in `fin'` is the one that ends in `fin`, except for the signals of `hid`, the
microphones `M` and the diagnostics that are not of `keep`. -/
structure SameBut {F K R S P D O G : Type} (hid : String → Bool) (M : List String) (keep : String → Bool)
    (fin fin' : SimSt R F S (G × Coll (K × K × K) (IrMat R)) P D O) : Prop where
  sig : ∀ k, hid k = false → fin'.eng.sig k = fin.eng.sig k
  filts : ∀ s m, hid m = false → fin'.eng.filts s m = fin.eng.filts s m
  paths : ∀ s m, m ∉ M → fin'.eng.arr.2.paths s m = fin.eng.arr.2.paths s m
  srcs : fin'.eng.srcs = fin.eng.srcs
  proc : fin'.eng.proc = fin.eng.proc
  idx : fin'.idx = fin.idx
  n : fin'.n = fin.n
  diags : fin'.diags = fin.diags.filter fun d => keep d.name
  log : fin'.log = fin.log.filter fun e => keep e.diag

end Verif
