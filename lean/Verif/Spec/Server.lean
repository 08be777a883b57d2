import Verif.Model.Server
/-
Notions about a server and a request that the server properties are stated with.
-/

namespace OAuth2.Spec

/-- A client is registered under this id, and if it is confidential this is its secret. -/
def Identified (s : Server) (id secret : Str) : Prop :=
  ∃ c, s.clients.get? id = some c ∧ (c.confidential = true → c.secret = secret)

/-- A user is registered under this name with this password. -/
def Password (s : Server) (username password : Str) : Prop :=
  ∃ u, s.users.get? username = some u ∧ u.secret = password

/-- The text after the last slash of the path, or the whole path if it has none. -/
def LastSegment (path seg : Str) : Prop :=
  0x2F ∉ seg ∧ (path = seg ∨ ∃ front, path = front ++ [0x2F] ++ seg)

end OAuth2.Spec
