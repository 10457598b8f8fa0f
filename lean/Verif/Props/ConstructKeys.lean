import Verif.Props.Construct
import Verif.Lemmas.Addrs
import Verif.Props.Bmp
import Verif.Model.Text
import Verif.Model.Release

/-!
# C107: MAC prefixes, IPv6 FlowSpec prefixes and session keys; C103: wrapping
-/

namespace Zbgp.Props

open Zbgp Zbgp.Spec

/-- C107: a MAC prefix made with its constructor is shown as the address, a slash and the length; an IPv6 FlowSpec destination or
source is sent as its length, the offset given and the octets of its address. -/
theorem C107_mac_flowspec6 (p : BgpSessionParams) :
    (∀ (a : MacAddress) (n : U8), (BgpAddrMac.new a n).display = a.display ++ '/' :: Nat.toDigits 10 n.toNat) ∧
    (∀ (o n : U8) (a : IPv6), n.toNat ≤ 128 →
      Writes (BgpAddrs.encodeTo (.FS6U [.prefixDst (.new o (.new a n))]) p)
        ([BitVec.ofNat 8 (3 + (n.toNat + 7) / 8), 1, n, o] ++ (be 16 a.toNat).take ((n.toNat + 7) / 8)) ∧
      Writes (BgpAddrs.encodeTo (.FS6U [.prefixSrc (.new o (.new a n))]) p)
        ([BitVec.ofNat 8 (3 + (n.toNat + 7) / 8), 2, n, o] ++ (be 16 a.toNat).take ((n.toNat + 7) / 8))) := by
  refine ⟨fun a n => rfl, fun o n a hn => ?_⟩
  have hl : ((be 16 a.toNat).take ((n.toNat + 7) / 8)).length = (n.toNat + 7) / 8 := by simp; omega
  constructor
  · have := addrs_writes (.FS6U [.prefixDst (.new o (.new a n))]) p
      ⟨by
        intro x hx
        simp only [List.mem_cons, List.not_mem_nil, or_false] at hx
        subst hx
        refine ⟨.inr hn, ?_⟩
        simp only [fsComponent, FsPrefix.body, FS6.new, BgpAddrV6.new, prefixBody, octets, List.length_cons, hl]
        omega, by simp⟩
    simp only [addrsWire, List.flatMap_cons, List.flatMap_nil, List.append_nil, fsWire, fsLen, fsComponent, FsPrefix.body, FS6.new,
      BgpAddrV6.new, prefixBody, octets, List.length_cons, hl] at this
    rw [if_pos (by omega), show (n.toNat + 7) / 8 + 1 + 1 + 1 = 3 + (n.toNat + 7) / 8 by omega] at this
    exact this
  · have := addrs_writes (.FS6U [.prefixSrc (.new o (.new a n))]) p
      ⟨by
        intro x hx
        simp only [List.mem_cons, List.not_mem_nil, or_false] at hx
        subst hx
        refine ⟨.inr hn, ?_⟩
        simp only [fsComponent, FsPrefix.body, FS6.new, BgpAddrV6.new, prefixBody, octets, List.length_cons, hl]
        omega, by simp⟩
    simp only [addrsWire, List.flatMap_cons, List.flatMap_nil, List.append_nil, fsWire, fsLen, fsComponent, FsPrefix.body, FS6.new,
      BgpAddrV6.new, prefixBody, octets, List.length_cons, hl] at this
    rw [if_pos (by omega), show (n.toNat + 7) / 8 + 1 + 1 + 1 = 3 + (n.toNat + 7) / 8 by omega] at this
    exact this

example : Writes (BgpAddrs.encodeTo (.FS6U [.prefixDst (.new 8 (.new (0x20010db8#32 ++ 0#96) 32))]) (.new 1 180 .IPv6 0 []))
    [7, 1, 32, 8, 0x20, 1, 0x0d, 0xb8] :=
  ((C107_mac_flowspec6 _).2 8 32 _ (by decide)).1

/-- C107: with the key made of a distinguisher and an address, the table of a session that has seen any messages is asked about that
peer: it has the peer-up that was the last message about the peer, and nothing if there is none. -/
theorem C107_session_key (hist : List Bytes) (rd : BgpRD) (ip : IpAddr) (m : BmpMessagePeerUp) :
    BTree.get (BgpSessionKey.new rd ip) (after hist).sessions = some m ↔ LastUp hist rd ip m := by
  obtain ⟨h1, h2⟩ := after_table hist
  rw [← lastUpDec_eq, ← h2]
  exact btree_get_iff lawful_key key_ext _ h1 _ _

example : BTree.get (BgpSessionKey.new peer4.peerdistinguisher peer4.peeraddress) (after [[1, 0], up4Bytes, []]).sessions = some up4 :=
  (C107_session_key _ _ _ _).2 up4_last

/-- **C103**: a difference of two sizes is, without overflow checks, the difference of 64-bit numbers, also where it is negative. -/
theorem C103_size_difference (a b : Nat) (ha : a < 2 ^ 64) (hb : b < 2 ^ 64) :
    Build.subN .release a b = .ok (BitVec.ofNat 64 a - BitVec.ofNat 64 b).toNat := by
  have h : (if b ≤ a then a - b else a + 2 ^ 64 - b) = (BitVec.ofNat 64 a - BitVec.ofNat 64 b).toNat := by
    rw [BitVec.toNat_sub, BitVec.toNat_ofNat, BitVec.toNat_ofNat, Nat.mod_eq_of_lt ha, Nat.mod_eq_of_lt hb]
    split <;> omega
  exact congrArg Res.ok h

example : Build.subN .release 3 5 = .ok (2 ^ 64 - 2) := by rw [C103_size_difference 3 5 (by decide) (by decide)]; rfl

end Zbgp.Props
