import Verif.Xdp.Outcome
/- Concrete tables, environment and frames for the examples beside the theorems about packets. Models no code. -/
namespace Eupf.DemoDp

/-- UPF at N3 10.0.3.10 and N9 10.0.9.10; every lookup answers interface 7. -/
def env : Env where
  n3 := swap32 0x0A00030A
  n9 := swap32 0x0A00090A
  ifindex := 2
  tUL := 10000000
  tDL := 10000000
  headroom := some (Vector.replicate 44 0)
  fib := fun _ => .ok 7 (Vector.replicate 6 0xAA) (Vector.replicate 6 0xBB)

/-- UE 10.60.0.1: uplink TEID 0x100 (header removal, FAR 0, QER 0), downlink to 10.0.3.20 TEID 0x200 (FAR 1, QER 0); QER 0: both
gates open, 10 Mbit/s, QFI 9. TEID 0x101: FAR 2 (drop). TEID 0x102: FAR 3 (N9 tunnel to 10.0.9.20, TEID 0x300). -/
def dp : BpfObjects :=
  let b := BpfObjects.load 16 16 16 16
  { b with
    pdrUl := ⟨((((GoMap.empty : GoMap U32 PdrEntry).set 0x100 { ohr := 0, farId := 0, qerId := 0 }).set 0x101 { farId := 2 }).set 0x102 { farId := 3 }), 16⟩
    pdrDl4 := ⟨(GoMap.empty : GoMap Ip4 PdrEntry).set 0x0A3C0001 { farId := 1, qerId := 0 }, 16⟩
    far := ⟨16, fun i => if i = 0 then { action := 2 } else if i = 1 then { action := 2, ohc := 1, teid := 0x200, remoteIP := swap32 0x0A000314, tlm := 0x1CFF }
      else if i = 3 then { action := 2, ohc := 1, teid := 0x300, remoteIP := swap32 0x0A000914 } else {}⟩
    qer := ⟨16, fun i => if i = 0 then { qfi := 9, mbrUL := 10000000, mbrDL := 10000000 } else {}⟩ }

/-- 12 octets of MAC addresses -/
def macsIn : List U8 := [0x02, 0, 0, 0, 0, 1, 0x02, 0, 0, 0, 0, 2]

/-- IPv4 header without options -/
def ip4h (len : Nat) (proto : U8) (src dst : List U8) : List U8 :=
  [0x45, 0, BitVec.ofNat 8 (len / 256), BitVec.ofNat 8 len, 0, 0, 0, 0, 64, proto, 0, 0] ++ src ++ dst

/-- UDP 5000 to 53 with 4 octets payload -/
def udp4 : List U8 := [0x13, 0x88, 0, 53, 0, 12, 0, 0, 1, 2, 3, 4]
/-- the UE's packet to 8.8.8.8 -/
def ueUp : List U8 := ip4h 32 17 [10, 60, 0, 1] [8, 8, 8, 8] ++ udp4
/-- the answer -/
def ueDown : List U8 := ip4h 32 17 [8, 8, 8, 8] [10, 60, 0, 1] ++ udp4

/-- a G-PDU to the UPF with TEID `t` -/
def gpdu (t : List U8) (inner : List U8) : List U8 :=
  macsIn ++ [8, 0] ++ ip4h (36 + inner.length) 17 [10, 0, 3, 20] [10, 0, 3, 10] ++ [8, 0x68, 8, 0x68, 0, BitVec.ofNat 8 (16 + inner.length), 0, 0] ++
    [0x30, 255, 0, BitVec.ofNat 8 inner.length] ++ t ++ inner

def up : List U8 := gpdu [0, 0, 1, 0] ueUp
def upUnknown : List U8 := gpdu [0, 0, 0xFF, 0] ueUp
def upDropped : List U8 := gpdu [0, 0, 1, 1] ueUp
def upN9 : List U8 := gpdu [0, 0, 1, 2] ueUp
def down : List U8 := macsIn ++ [8, 0] ++ ueDown
/-- ping of the UPF by the UE -/
def icmp : List U8 := [8, 0, 0xF7, 0xFF, 0, 0, 0, 0]
def upPing : List U8 := gpdu [0, 0, 1, 0] (ip4h 28 1 [10, 60, 0, 1] [10, 0, 3, 10] ++ icmp)
/-- GTP-U echo request, sequence number 5 -/
def echo : List U8 :=
  macsIn ++ [8, 0] ++ ip4h 40 17 [10, 0, 3, 20] [10, 0, 3, 10] ++ [8, 0x68, 8, 0x68, 0, 20, 0, 0] ++ [0x32, 1, 0, 4, 0, 0, 0, 0, 0, 5, 0, 0]

/-- Device state before a frame arrives. -/
def ps (f : List U8) : PS := ⟨f, dp, {}, {}⟩

theorem up_gpdu : IsGtpMsg env up 255 := ⟨⟨⟨by decide, by decide⟩, by decide, by decide, by decide, by decide⟩, by decide, by decide⟩
theorem upUnknown_gpdu : IsGtpMsg env upUnknown 255 := ⟨⟨⟨by decide, by decide⟩, by decide, by decide, by decide, by decide⟩, by decide, by decide⟩
theorem upDropped_gpdu : IsGtpMsg env upDropped 255 := ⟨⟨⟨by decide, by decide⟩, by decide, by decide, by decide, by decide⟩, by decide, by decide⟩
theorem upN9_gpdu : IsGtpMsg env upN9 255 := ⟨⟨⟨by decide, by decide⟩, by decide, by decide, by decide, by decide⟩, by decide, by decide⟩
theorem upPing_gpdu : IsGtpMsg env upPing 255 := ⟨⟨⟨by decide, by decide⟩, by decide, by decide, by decide, by decide⟩, by decide, by decide⟩
theorem echo_msg : IsGtpMsg env echo 1 := ⟨⟨⟨by decide, by decide⟩, by decide, by decide, by decide, by decide⟩, by decide, by decide⟩
theorem down_down4 : IsDown4 env down :=
  ⟨⟨by decide, by decide⟩, by decide, fun h => absurd h.port (by decide)⟩

/-- what happens to these frames -/
theorem runs :
    ((runPacket env (ps up)).2 = .ok (.redirect 7)) ∧ ((runPacket env (ps down)).2 = .ok (.redirect 7)) ∧
    ((runPacket env (ps upUnknown)).2 = .ok .pass) ∧ ((runPacket env (ps upDropped)).2 = .ok .drop) ∧
    ((runPacket env (ps upN9)).2 = .ok (.redirect 7)) ∧ ((runPacket env (ps upPing)).2 = .ok (.redirect 7)) ∧
    ((runPacket env (ps echo)).2 = .ok .tx) := by decide +kernel

end Eupf.DemoDp
