import Verif.Model.Engine
/-!
# Specification of C68: presses after which a question cannot be answered any more
-/
namespace Ergo.Spec

/-- Both buttons were pressed on the page "Path" of a question. -/
def PathPressed (o : BoardObs) : Prop :=
  o.event = .both ∧ ∃ t, o.here = some (.screen (.info ⟨.path, t⟩))

/-- A question is on display that no sequence of events answers: every event leaves everything as it is,
buttons without any reaction. -/
def Stuck (env : Env) (nanoS : Bool) (b : Board) : Prop :=
  b.dev.busy = true ∧ b.dev.asks.isSome ∧
    (∀ es, (b.run env nanoS es).1 = b) ∧
    ∀ e, (e = .left ∨ e = .right ∨ e = .both) → (b.step env nanoS e).2 = .wait

/-- The questions that have a page "Path". -/
def showsPath (t : Title) : Prop :=
  t = .extPubKeyExport ∨ t = .confirmAddress ∨ t = .confirmSendAddress

/-- The observation of the device, as it is made with the engine. -/
def boardView (o : Obs) : BoardObs := ⟨o.here.map .screen, o.event, o.reply⟩

end Ergo.Spec
