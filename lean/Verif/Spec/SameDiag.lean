/-
The same diagnostics on two processors (C159).
-/
import Verif.Model.Diagnostics
namespace Verif

section
variable {R P P' V : Type}

/-- Two diagnostics of one class with the same data; a property that is read from the
processors has the same value on processors related by `K`. -/
inductive DData.Same (K : P → P' → Prop) : DData R P V → DData R P' V → Prop
  | recSignal (sig chan m) : Same K (.recSignal sig chan m) (.recSignal sig chan m)
  | recState (get get' values times i) : (∀ p p', K p p' → get' p' = get p) →
      Same K (.recState get values times i) (.recState get' values times i)
  | power (sig chan pw) : Same K (.power sig chan pw) (.power sig chan pw)
  | ratio (a ca b cb q v) : Same K (.ratio a ca b cb q v) (.ratio a ca b cb q v)
  | instant (get get' v) : (∀ p p', K p p' → get' p' = get p) → Same K (.instant get v) (.instant get' v)
  | sfPower (sig q pw) : Same K (.sfPower sig q pw) (.sfPower sig q pw)
  | spectrum (sig chan w m k) : Same K (.spectrum sig chan w m k) (.spectrum sig chan w m k)
  | summary (sig f q y) : Same K (.summary sig f q y) (.summary sig f q y)

/-- The same diagnostic: name, times and data. -/
def Diag.Same (K : P → P' → Prop) (d : Diag (DData R P V)) (d' : Diag (DData R P' V)) : Prop :=
  d'.name = d.name ∧ d'.saveAt = d.saveAt ∧ d'.exportAt = d.exportAt ∧ d.data.Same K d'.data

end
end Verif
