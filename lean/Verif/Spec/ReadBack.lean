import Verif.Model.Config
import Verif.Model.Node4D
/-! # Addresses that can be told apart -/

namespace CM

/-- Pairwise different addresses, as the program compares them: a zone 0 is the same as any zone. -/
def Distinct4D (l : List Node4D) : Prop := l.Pairwise fun a b => compare4D a b ≠ 0

instance (l : List Node4D) : Decidable (Distinct4D l) := inferInstanceAs (Decidable (List.Pairwise _ _))

/-- What a REMOTEAF line needs: without a name there is no password and no plus. -/
def RemoteOk (n : ConfigNode) : Prop := n.remoteAFName = [] → n.remoteAFPw = [] ∧ n.has NODE_AFNEEDSPLUS = false

end CM
