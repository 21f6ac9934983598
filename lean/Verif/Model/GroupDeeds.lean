import Verif.Model.GroupStores
/-
One user's group life: calls of groups/ with any arguments, during which the user may die.
-/
namespace Verif

/-- A group call that is completed (`none`), or during which the user dies before (`some false`) or after (`some true`) the call's `StoreSenderKey`, if it makes one (groups/cipher.go:66,
groups/cipher.go:104, groups/session_builder.go:45, groups/session_builder.go:65). -/
structure GDeed where
  what : GOp
  dies : Option Bool

/-- What it leaves in the store. groups/cipher.go:37, 73, groups/session_builder.go:37, 49. -/
def GStore.deed (C : Crypto) (S : Ser SKStruct) (st : GStore) (d : GDeed) : GStore :=
  match d.dies with
  | some false => st
  | _ => (st.call C S d.what).2

/-- A life (no .go counterpart: the environment). -/
def GStore.deeds (C : Crypto) (S : Ser SKStruct) (st : GStore) (ds : List GDeed) : GStore := ds.foldl (fun st d => st.deed C S d) st

end Verif
