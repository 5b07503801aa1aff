import Verif.Model.CrashMaint
import Verif.Spec.CrashExport
import Verif.Spec.ConfigFile
/-! # CrashMaint: what is expected (C94) -/

namespace CM

/-- The name of a template for new areas: `DEFAULT`, or something that begins with `DEFAULT_`. -/
def TemplateName (tag : Str) : Prop := tag.map upper = b!"DEFAULT" ∨ b!"DEFAULT_" <+: tag.map upper

instance (tag : Str) : Decidable (TemplateName tag) := inferInstanceAs (Decidable (_ ∨ _))

/-- The areas with messages to maintain: those that have a message base and are not templates. -/
def HasMessages (a : Area) : Prop := a.base ≠ none ∧ ¬ TemplateName a.tag

instance (a : Area) : Decidable (HasMessages a) := inferInstanceAs (Decidable (_ ∧ _))

/-- The areas asked for. -/
def AskedFor (pattern : Option Str) (a : Area) : Prop := ∀ p, pattern = some p → osMatchPattern p a.tag = true

instance (pattern : Option Str) (a : Area) : Decidable (AskedFor pattern a) :=
  match pattern with
  | none => isTrue (fun _ h => by cases h)
  | some p => if h : osMatchPattern p a.tag = true then isTrue (fun _ e => by cases e; exact h) else isFalse (fun e => h (e p rfl))

/-- What is to be done with an area of CrashMail: its messages, its limits. -/
def JobOf (args : MaintArgs) (a : Area) (j : MaintJob) : Prop :=
  a.base = some j.base ∧ j.tag = a.tag ∧ j.path = a.path ∧
    j.opt = { maint := args.maint, pack := args.pack, keepNum := a.keepNum, keepDays := a.keepDays }

/-- The work of a run: one job for each area with messages that was asked for, in the order of the configuration. -/
inductive Jobs (args : MaintArgs) : List Area → List MaintJob → Prop
  | nil : Jobs args [] []
  | job {a as j js} (h : HasMessages a) (h' : AskedFor args.pattern a) (e : JobOf args a j) (t : Jobs args as js) : Jobs args (a :: as) (j :: js)
  | skip {a as js} (h : ¬ (HasMessages a ∧ AskedFor args.pattern a)) (t : Jobs args as js) : Jobs args (a :: as) js

/-- A line with a limit. -/
def LimitLine (l : Str) : Prop := eqi (keyword l) b!"KEEPNUM" = true ∨ eqi (keyword l) b!"KEEPDAYS" = true

/-- The number in such a line is written with less than thirty characters, and is not 0. -/
def ProperLimit (l : Str) : Prop :=
  LimitLine l → (jbstrcpy 30 (jbstrcpy 30 l).2.1).1.length < 29 ∧ UInt32.ofInt (atol (jbstrcpy 30 (jbstrcpy 30 l).2.1).1) ≠ 0

/-- Areas without messages to maintain have no limits. -/
def LimitsInPlace (as : List Area) : Prop := ∀ a ∈ as, ¬ HasMessages a → a.keepNum = 0 ∧ a.keepDays = 0

end CM
