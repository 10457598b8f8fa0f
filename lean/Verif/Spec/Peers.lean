import Verif.Spec.ReleaseBmp

/-!
# Messages about one peer among those about others
-/

namespace Zbgp.Spec

open Zbgp

/-- The octets that say which peer a BMP message is about: behind its type, and the type and flags of the peer, the peer
distinguisher (8 octets) and the peer address (16 octets). -/
def peerOctets (b : Bytes) : Bytes := (b.drop 3).take 24

/-- A station reads one message after the other with one session object: each message with what it was read as. -/
def readAll : BMPSession → List Bytes → List (Bytes × Res BmpMessage)
  | _, [] => []
  | s, b :: bs => (b, (s.decodeFrom b).1) :: readAll (s.decodeFrom b).2 bs

/-- The same for a build without overflow checks. -/
def readAllRelease : BMPSession → List Bytes → List (Bytes × Res BmpMessage)
  | _, [] => []
  | s, b :: bs => (b, (s.decodeFromIn .release b).1) :: readAllRelease (s.decodeFromIn .release b).2 bs

end Zbgp.Spec
