/-! Calling a callback on a list of items until it asks to stop. -/

namespace MGL.Spec

/-- The list up to and including the first entry with the property. -/
def upTo {X : Type _} (p : X → Bool) : List X → List X
  | [] => []
  | x :: l => if p x then [x] else x :: upTo p l

end MGL.Spec

namespace MGL.Spec

/-- A callback with a state is called on the items until it asks to stop: the state at the end. -/
def runCalls {σ X : Type _} (cb : σ → X → σ × Bool) : σ → List X → σ
  | s, [] => s
  | s, x :: l => if (cb s x).2 then (cb s x).1 else runCalls cb (cb s x).1 l

end MGL.Spec
