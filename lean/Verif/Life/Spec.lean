import Verif.Life.Model

/-!
# What the freeing of filters should look like from outside

Only events are mentioned here: the creation of a filter, the call of its free function, `freeCore`, and the
deletion of the core.
-/

namespace VS.Life

/-- What must hold when `e` happens after `past`. -/
def Allowed (past : List Event) : Event → Prop
  -- the free function is called once, for a filter that has one, after those of all filters that keep a reference
  -- to it in their data
  | .freed c => .freed c ∉ past ∧ .coreDeleted ∉ past ∧ (∃ deps data, .created c deps data true ∈ past) ∧
      ∀ n deps data f, .created n deps data f ∈ past → c ∈ data → .freed n ∈ past
  -- a filter is created once, from filters that exist
  | .created c deps data _ => (∀ ds xs f, .created c ds xs f ∉ past) ∧ .coreReleased ∉ past ∧
      ∀ d, d ∈ deps ∨ d ∈ data → (∃ ds xs f, .created d ds xs f ∈ past) ∧ .freed d ∉ past
  | .coreReleased => .coreReleased ∉ past
  -- the core is deleted once, after `freeCore` and after all filters are gone
  | .coreDeleted => .coreDeleted ∉ past ∧ .coreReleased ∈ past ∧
      ∀ n deps data, .created n deps data true ∈ past → .freed n ∈ past

/-- Every event was allowed when it happened. -/
def Lawful (tr : List Event) : Prop := ∀ past e rest, tr = past ++ e :: rest → Allowed past e

end VS.Life
