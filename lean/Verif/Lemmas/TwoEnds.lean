import Verif.Lemmas.Relay

/-! # Encoders use nothing of a session but the family of the transport and the width of AS numbers -/

namespace Zbgp

open Spec

section
variable {p q : BgpSessionParams} (hm : p.peerMode = q.peerMode) (ha : p.hasAs32bit = q.hasAs32bit)
include hm

theorem addrs_congr (x : BgpAddrs) : x.encodeTo p = x.encodeTo q := by
  funext b
  cases x <;> simp only [BgpAddrs.encodeTo, hm]

include ha

theorem value_congr (x : BgpAttrItem) : x.encodeValue p = x.encodeValue q := by
  funext b
  cases x <;> simp only [BgpAttrItem.encodeValue, BgpASpath.encodeTo, BgpNextHop.encodeTo, BgpAggregatorAS.encodeTo,
    BgpOriginatorID.encodeTo, BgpMPUpdates.encodeTo, BgpMPWithdraws.encodeTo, BgpMPUpdates.encodeNexthop, addrs_congr hm, hm, ha]

theorem attr_congr (x : BgpAttrItem) : x.encodeTo p = x.encodeTo q := by
  funext b
  simp only [BgpAttrItem.encodeTo, value_congr hm ha]

theorem attrs_congr (lp : Nat) (l : List BgpAttrItem) :
    BgpUpdateMessage.encodeAttrs p lp l = BgpUpdateMessage.encodeAttrs q lp l := by
  funext b pos
  induction l generalizing b pos with
  | nil => rfl
  | cons x l ih => simp only [BgpUpdateMessage.encodeAttrs, attr_congr hm ha, ih]

theorem update_congr (m : BgpUpdateMessage) : m.encodeTo p = m.encodeTo q := by
  funext b
  have hn : ∀ x, BgpUpdateMessage.nlriEncoder p x = BgpUpdateMessage.nlriEncoder q x := by
    intro x; simp only [BgpUpdateMessage.nlriEncoder, hm]
  simp only [BgpUpdateMessage.encodeTo, BgpUpdateMessage.encodeWithdraws, hn, attrs_congr hm ha]

end

end Zbgp
