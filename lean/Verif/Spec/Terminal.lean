import Verif.Model.Terminal

/-!
# When the cursor is visible
-/

namespace Angonoka.Terminal

/-- A terminal that has received this shows the cursor: after every order to hide it there is one to show it. -/
def Visible (screen : List Out) : Prop :=
  ∀ pre post, screen = pre ++ .hide :: post → .show ∈ post

/-- The signal handler runs on the main thread: it starts after some turns of the main thread, which then does nothing more. -/
def OnMainThread (turns : List Turn) : Prop :=
  ∃ before after, turns = before ++ after ∧ Turn.handler ∉ before ∧ Turn.main ∉ after

end Angonoka.Terminal
