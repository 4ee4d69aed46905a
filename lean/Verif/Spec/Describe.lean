import Verif.Model.Describe

/-!
# What a document says
-/

namespace Trumania
namespace Spec

/-- the document has `v` at the end of the path of keys -/
def Tells : PyObj → List String → PyObj → Prop
  | o, [], v => o = v
  | .dict d, k :: ks, v => ∃ o, (k, o) ∈ d ∧ Tells o ks v
  | _, _ :: _, _ => False

/-- generators that depend on observations, and have no description -/
def Dependent {σ : Type} : AnyGen σ → Prop
  | .cyclic _ | .trigger .. | .bulk _ => True
  | _ => False

end Spec
end Trumania
