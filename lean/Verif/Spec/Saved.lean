import Verif.Spec.Restart
import Verif.Spec.Areafix
/-! # Changes of the configuration that will be saved -/

namespace CM

/-- The differences between two configurations, both in memory, are all marked, so that rewriting the
configuration file saves them: an area is the same, or changed and marked, or gone; new areas stand at the
end and are marked; a node that has changed in more than the commands waiting for it is marked; and if
there is any such change, the configuration as a whole is marked. Nothing but areas and nodes changes. -/
structure Recorded (c c' : Config) : Prop where
  rest : c' = { c with areas := c'.areas, nodes := c'.nodes, changed := c'.changed }
  count : c'.nodes.length = c.nodes.length
  nodes : ∀ (i : Nat) (n n' : ConfigNode), c.nodes[i]? = some n → c'.nodes[i]? = some n' →
    n'.node = n.node ∧ (n' = { n with remoteAF := n'.remoteAF } ∨ n'.changed = true)
  areas : ∃ kept added, c'.live = kept ++ added ∧ AreasNow c.live kept ∧ ∀ a ∈ added, a.changed = true
  keeps : c.changed = true → c'.changed = true
  noted : c'.changed = true ∨ (c'.live = c.live ∧
    ∀ (i : Nat) (n n' : ConfigNode), c.nodes[i]? = some n → c'.nodes[i]? = some n' →
      n' = { n with remoteAF := n'.remoteAF })

end CM
