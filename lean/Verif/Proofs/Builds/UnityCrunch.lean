import Verif.Proofs.Builds.Crunch
import Verif.Model.UnityCrunch

namespace Verif.Proofs.Builds

open Verif Verif.Model

/-! Each function of the Unity variant of Crunch in a build with overflow checks panics or has the outcome it has without. -/

theorem Crn_Unity_reference_builds {msg : String} {dm : Crn.DataModel} {y x : Nat}
    {st : Crn.Unity.UState} :
    LeR (@Crn.Unity.reference Build.debug msg dm y x st)
      (@Crn.Unity.reference Build.release msg dm y x st) := by
  unfold Crn.Unity.reference
  repeat' (first | with_reducible apply Crn_Codec_decode_builds | builds_step)

/-- Two descriptions of a format whose functions are related. -/
structure LeK (k k' : Crn.Unity.Kind) : Prop where
  msg : k.msg = k'.msg
  fresh : ∀ i c, LeR (k.fresh i c) (k'.fresh i c)
  select : ∀ c, LeR (k.select c) (k'.select c)
  write : ∀ i s p d, LeO (k.write i s p d) (k'.write i s p d)

theorem Crn_Unity_endpoints_builds {k k' : Crn.Unity.Kind} {x ref : Nat} {st : Crn.Unity.UState}
    (hk : LeK k k') :
    LeR (Crn.Unity.endpoints k x ref st) (Crn.Unity.endpoints k' x ref st) := by
  unfold Crn.Unity.endpoints
  repeat' (first | with_reducible apply hk.fresh | builds_step)

theorem Crn_Unity_etcEndpoints_builds {k k' : Crn.Unity.Kind} {x ref : Nat} {st : Crn.Unity.UState}
    (hk : LeK k k') :
    LeR (Crn.Unity.etcEndpoints k x ref st) (Crn.Unity.etcEndpoints k' x ref st) := by
  unfold Crn.Unity.etcEndpoints
  repeat' (first | with_reducible apply hk.fresh | builds_step)

theorem Crn_Unity_block_builds {k k' : Crn.Unity.Kind} {dm : Crn.DataModel} {words ow oh y x : Nat}
    {st : Crn.Unity.UState} (hk : LeK k k') :
    LeR (@Crn.Unity.block Build.debug k dm words ow oh y x st)
      (@Crn.Unity.block Build.release k' dm words ow oh y x st) := by
  unfold Crn.Unity.block
  rw [hk.msg]
  repeat' (first | with_reducible apply hk.select | with_reducible apply hk.write
                 | with_reducible apply Crn_Unity_reference_builds
                 | with_reducible refine Crn_Unity_endpoints_builds hk | builds_step)

theorem Crn_Unity_linearHalf_builds {dm : Crn.DataModel} {lin : Nat} {k : Crn.Codec} :
    LeR (@Crn.Unity.linearHalf Build.debug dm lin k)
      (@Crn.Unity.linearHalf Build.release dm lin k) := by
  unfold Crn.Unity.linearHalf
  repeat' (first | with_reducible apply Crn_Codec_decode_builds | builds_step)

theorem Crn_Unity_decodeAlphaSelectors_builds {data : List UInt8} {h : CrnHeader} :
    LeR (@Crn.Unity.decodeAlphaSelectors Build.debug data h)
      (@Crn.Unity.decodeAlphaSelectors Build.release data h) := by
  unfold Crn.Unity.decodeAlphaSelectors
  repeat' (first | with_reducible apply Crn_Codec_receiveModel_builds
                 | with_reducible apply Crn_Unity_linearHalf_builds | builds_step)

theorem Crn_Unity_etcAlphaSelector_builds {dm : Crn.DataModel} {p : Nat} {lin : List Nat}
    {group : Nat} {k : Crn.Codec} :
    LeR (@Crn.Unity.etcAlphaSelector Build.debug dm p lin group k)
      (@Crn.Unity.etcAlphaSelector Build.release dm p lin group k) := by
  unfold Crn.Unity.etcAlphaSelector
  repeat' (first | with_reducible apply Crn_Codec_decode_builds | builds_step)

theorem Crn_Unity_orBits_builds {buf : List Nat} {base d s : Nat} :
    LeO (@Crn.Unity.orBits Build.debug buf base d s)
      (@Crn.Unity.orBits Build.release buf base d s) := by
  unfold Crn.Unity.orBits
  repeat' builds_step

theorem Crn_Unity_etcsAlphaEntry_builds {dm : Crn.DataModel} {base : Nat} {lin buf : List Nat}
    {k : Crn.Codec} :
    LeR (@Crn.Unity.etcsAlphaEntry Build.debug dm base lin buf k)
      (@Crn.Unity.etcsAlphaEntry Build.release dm base lin buf k) := by
  unfold Crn.Unity.etcsAlphaEntry
  repeat' (first | with_reducible apply Crn_Unity_etcAlphaSelector_builds
                 | with_reducible apply Crn_Unity_orBits_builds | builds_step)

theorem Crn_Unity_decodeAlphaSelectorsEtcs_builds {data : List UInt8} {h : CrnHeader} :
    LeR (@Crn.Unity.decodeAlphaSelectorsEtcs Build.debug data h)
      (@Crn.Unity.decodeAlphaSelectorsEtcs Build.release data h) := by
  unfold Crn.Unity.decodeAlphaSelectorsEtcs
  repeat' (first | with_reducible apply Crn_Codec_receiveModel_builds
                 | with_reducible apply Crn_Unity_etcsAlphaEntry_builds | builds_step)

theorem Crn_Unity_etcAlphaEntry_builds {dm : Crn.DataModel} {base : Nat} {lin buf : List Nat}
    {k : Crn.Codec} :
    LeR (@Crn.Unity.etcAlphaEntry Build.debug dm base lin buf k)
      (@Crn.Unity.etcAlphaEntry Build.release dm base lin buf k) := by
  unfold Crn.Unity.etcAlphaEntry
  repeat' (first | with_reducible apply Crn_Unity_etcAlphaSelector_builds
                 | with_reducible apply Crn_Unity_orBits_builds | builds_step)

theorem Crn_Unity_decodeAlphaSelectorsEtc_builds {data : List UInt8} {h : CrnHeader} :
    LeR (@Crn.Unity.decodeAlphaSelectorsEtc Build.debug data h)
      (@Crn.Unity.decodeAlphaSelectorsEtc Build.release data h) := by
  unfold Crn.Unity.decodeAlphaSelectorsEtc
  repeat' (first | with_reducible apply Crn_Codec_receiveModel_builds
                 | with_reducible apply Crn_Unity_etcAlphaEntry_builds | builds_step)

theorem Crn_Unity_decodeAlphaSelectorsAny_builds {data : List UInt8} {h : CrnHeader} :
    LeR (@Crn.Unity.decodeAlphaSelectorsAny Build.debug data h)
      (@Crn.Unity.decodeAlphaSelectorsAny Build.release data h) := by
  unfold Crn.Unity.decodeAlphaSelectorsAny
  repeat' (first | with_reducible apply Crn_Unity_decodeAlphaSelectorsEtcs_builds
                 | with_reducible apply Crn_Unity_decodeAlphaSelectorsEtc_builds
                 | with_reducible apply Crn_Unity_decodeAlphaSelectors_builds | builds_step)

theorem Crn_Unity_etcEndpointStep_builds {dm : Crn.DataModel} {a : Nat} {k : Crn.Codec} :
    LeR (@Crn.Unity.etcEndpointStep Build.debug dm a k)
      (@Crn.Unity.etcEndpointStep Build.release dm a k) := by
  unfold Crn.Unity.etcEndpointStep
  repeat' (first | with_reducible apply Crn_Codec_decode_builds | builds_step)

theorem Crn_Unity_etcEndpointWord_builds {sub : Bool} {a : Nat} :
    LeO (@Crn.Unity.etcEndpointWord Build.debug sub a)
      (@Crn.Unity.etcEndpointWord Build.release sub a) := by
  unfold Crn.Unity.etcEndpointWord
  repeat' builds_step

theorem Crn_Unity_decodeEtcEndpoints_builds {data : List UInt8} {h : CrnHeader} :
    LeR (@Crn.Unity.decodeEtcEndpoints Build.debug data h)
      (@Crn.Unity.decodeEtcEndpoints Build.release data h) := by
  unfold Crn.Unity.decodeEtcEndpoints
  repeat' (first | with_reducible apply Crn_Codec_receiveModel_builds
                 | with_reducible apply Crn_Unity_etcEndpointStep_builds
                 | with_reducible apply Crn_Unity_etcEndpointWord_builds | builds_step)

theorem Crn_Unity_xorWord_builds {dm : Crn.DataModel} {s : Nat} {k : Crn.Codec} :
    LeR (@Crn.Unity.xorWord Build.debug dm s k) (@Crn.Unity.xorWord Build.release dm s k) := by
  unfold Crn.Unity.xorWord
  repeat' (first | with_reducible apply Crn_Codec_decode_builds | builds_step)

theorem Crn_Unity_etcSelectorWord_builds {selector : Nat} {first : Nat → Nat → Nat} :
    LeO (@Crn.Unity.etcSelectorWord Build.debug selector first)
      (@Crn.Unity.etcSelectorWord Build.release selector first) := by
  unfold Crn.Unity.etcSelectorWord
  repeat' builds_step

theorem Crn_Unity_dxtSelectorWord_builds {s : Nat} :
    LeO (@Crn.Unity.dxtSelectorWord Build.debug s)
      (@Crn.Unity.dxtSelectorWord Build.release s) := by
  unfold Crn.Unity.dxtSelectorWord
  repeat' builds_step

theorem Crn_Unity_selectorWords_builds {format s : Nat} :
    LeO (@Crn.Unity.selectorWords Build.debug format s)
      (@Crn.Unity.selectorWords Build.release format s) := by
  unfold Crn.Unity.selectorWords
  repeat' (first | with_reducible apply Crn_Unity_etcSelectorWord_builds
                 | with_reducible apply Crn_Unity_dxtSelectorWord_builds | builds_step)

theorem Crn_Unity_decodeSelectors_builds {data : List UInt8} {h : CrnHeader} :
    LeR (@Crn.Unity.decodeSelectors Build.debug data h)
      (@Crn.Unity.decodeSelectors Build.release data h) := by
  unfold Crn.Unity.decodeSelectors
  repeat' (first | with_reducible apply Crn_Codec_receiveModel_builds
                 | with_reducible apply Crn_Unity_xorWord_builds
                 | with_reducible apply Crn_Unity_selectorWords_builds | builds_step)

theorem Crn_Unity_init_builds {data : List UInt8} {dataSize : Nat} :
    LeR (@Crn.Unity.init Build.debug data dataSize)
      (@Crn.Unity.init Build.release data dataSize) := by
  unfold Crn.Unity.init
  repeat' (first | with_reducible apply Crn_initTables_builds
                 | with_reducible apply Crn_Unity_decodeEtcEndpoints_builds
                 | with_reducible apply Crn_decodeColorEndpoints_builds
                 | with_reducible apply Crn_Unity_decodeSelectors_builds
                 | with_reducible apply Crn_decodeAlphaEndpoints_builds
                 | with_reducible apply Crn_Unity_decodeAlphaSelectorsAny_builds | builds_step)

theorem Crn_Unity_unpackBegin_builds {data : List UInt8} {dataSize : Nat} :
    LeR (@Crn.Unity.unpackBegin Build.debug data dataSize)
      (@Crn.Unity.unpackBegin Build.release data dataSize) := by
  unfold Crn.Unity.unpackBegin
  repeat' (first | with_reducible apply Crn_Unity_init_builds | builds_step)

theorem Crn_Unity_loop_builds {bufWidth words faces pitch ow oh : Nat}
    {f g : Nat → Nat → Crn.Unity.UState → Res Crn.Unity.UState} {codec : Crn.Codec} {dst : List UInt8}
    (hf : ∀ y x s, LeR (f y x s) (g y x s)) :
    LeR (@Crn.Unity.loop Build.debug bufWidth words faces pitch ow oh f codec dst)
      (@Crn.Unity.loop Build.release bufWidth words faces pitch ow oh g codec dst) := by
  unfold Crn.Unity.loop
  repeat' (first | with_reducible apply hf | builds_step)

theorem Crn_Unity_etcReference_builds {msg : String} {dm : Crn.DataModel} {y x : Nat}
    {st : Crn.Unity.UState} :
    LeR (@Crn.Unity.etcReference Build.debug msg dm y x st)
      (@Crn.Unity.etcReference Build.release msg dm y x st) := by
  unfold Crn.Unity.etcReference
  repeat' (first | with_reducible apply Crn_Codec_decode_builds | builds_step)

theorem Crn_Unity_nextEndpoint_builds {msg : String} {dm : Crn.DataModel} {num prev : Nat}
    {k : Crn.Codec} :
    LeR (@Crn.Unity.nextEndpoint Build.debug msg dm num prev k)
      (@Crn.Unity.nextEndpoint Build.release msg dm num prev k) := by
  unfold Crn.Unity.nextEndpoint
  repeat' (first | with_reducible apply Crn_Codec_decode_builds | builds_step)

theorem Crn_Unity_etcBlock_builds {u : Crn.Unpacker} {k k' : Crn.Unity.Kind}
    {write write' : Crn.Unity.EtcWrite} {words ow oh y x : Nat} {st : Crn.Unity.UState}
    (hk : LeK k k')
    (hw : ∀ e0 e1 a f s p d, LeO (write e0 e1 a f s p d) (write' e0 e1 a f s p d)) :
    LeR (@Crn.Unity.etcBlock Build.debug u k write words ow oh y x st)
      (@Crn.Unity.etcBlock Build.release u k' write' words ow oh y x st) := by
  unfold Crn.Unity.etcBlock
  rw [hk.msg]
  repeat' (first | with_reducible apply hk.select | with_reducible apply hw
                 | with_reducible apply Crn_Unity_etcReference_builds
                 | with_reducible refine Crn_Unity_etcEndpoints_builds hk
                 | with_reducible apply Crn_Unity_nextEndpoint_builds | builds_step)

theorem Crn_Unity_etcDiff_builds {e0 e1 : List Nat} :
    LeO (@Crn.Unity.etcDiff Build.debug e0 e1) (@Crn.Unity.etcDiff Build.release e0 e1) := by
  unfold Crn.Unity.etcDiff
  repeat' builds_step

theorem Crn_Unity_etcColourByte_builds {diff a b : Nat} :
    LeO (@Crn.Unity.etcColourByte Build.debug diff a b)
      (@Crn.Unity.etcColourByte Build.release diff a b) := by
  unfold Crn.Unity.etcColourByte
  repeat' builds_step

theorem Crn_Unity_etcBlockEndpoint_builds {e0 e1 : List Nat} {flip : Nat} :
    LeO (@Crn.Unity.etcBlockEndpoint Build.debug e0 e1 flip)
      (@Crn.Unity.etcBlockEndpoint Build.release e0 e1 flip) := by
  unfold Crn.Unity.etcBlockEndpoint
  repeat' (first | with_reducible apply Crn_Unity_etcDiff_builds
                 | with_reducible apply Crn_Unity_etcColourByte_builds | builds_step)

theorem Crn_Unity_writeBytes4_builds {dst : List UInt8} {pd : Nat} {b : List UInt8} :
    LeO (@Crn.Unity.writeBytes4 Build.debug dst pd b)
      (@Crn.Unity.writeBytes4 Build.release dst pd b) := by
  unfold Crn.Unity.writeBytes4
  repeat' builds_step

theorem Crn_Unity_writeEtcColour_builds {u : Crn.Unpacker} {e0 e1 : List Nat} {flip sel pd : Nat}
    {dst : List UInt8} :
    LeO (@Crn.Unity.writeEtcColour Build.debug u e0 e1 flip sel pd dst)
      (@Crn.Unity.writeEtcColour Build.release u e0 e1 flip sel pd dst) := by
  unfold Crn.Unity.writeEtcColour
  repeat' (first | with_reducible apply Crn_Unity_etcBlockEndpoint_builds
                 | with_reducible apply Crn_Unity_writeBytes4_builds
                 | with_reducible apply Crn_writeInt_builds | builds_step)

theorem Crn_Unity_etc1Write_builds {u : Crn.Unpacker} {x2 x3 : List Nat} {x4 x5 : Nat}
    {x6 : Nat × Nat} {x7 : Nat} {x8 : List UInt8} :
    LeO (@Crn.Unity.etc1Write Build.debug u x2 x3 x4 x5 x6 x7 x8)
      (@Crn.Unity.etc1Write Build.release u x2 x3 x4 x5 x6 x7 x8) := by
  unfold Crn.Unity.etc1Write
  repeat' (first | with_reducible apply Crn_Unity_writeEtcColour_builds | builds_step)

theorem Crn_Unity_writeAlphaWords_builds {u : Crn.Unpacker} {e first pd : Nat} {dst : List UInt8} :
    LeO (@Crn.Unity.writeAlphaWords Build.debug u e first pd dst)
      (@Crn.Unity.writeAlphaWords Build.release u e first pd dst) := by
  unfold Crn.Unity.writeAlphaWords
  repeat' (first | with_reducible apply Crn_writeInt_builds | builds_step)

theorem Crn_Unity_etc2aWrite_builds {u : Crn.Unpacker} {x2 x3 : List Nat} {x4 x5 : Nat}
    {x6 : Nat × Nat} {x7 : Nat} {x8 : List UInt8} :
    LeO (@Crn.Unity.etc2aWrite Build.debug u x2 x3 x4 x5 x6 x7 x8)
      (@Crn.Unity.etc2aWrite Build.release u x2 x3 x4 x5 x6 x7 x8) := by
  unfold Crn.Unity.etc2aWrite
  repeat' (first | with_reducible apply Crn_Unity_etcBlockEndpoint_builds
                 | with_reducible apply Crn_Unity_writeAlphaWords_builds
                 | with_reducible apply Crn_Unity_writeBytes4_builds
                 | with_reducible apply Crn_writeInt_builds | builds_step)

theorem Crn_Unity_selector_builds {msg : String} {dm : Crn.DataModel} {k : Crn.Codec} :
    LeR (@Crn.Unity.selector Build.debug msg dm k)
      (@Crn.Unity.selector Build.release msg dm k) := by
  unfold Crn.Unity.selector
  repeat' (first | with_reducible apply Crn_Codec_decode_builds | builds_step)

theorem Crn_Unity_dxt1Kind_builds {u : Crn.Unpacker} :
    LeK (@Crn.Unity.dxt1Kind Build.debug u) (@Crn.Unity.dxt1Kind Build.release u) where
  msg := rfl
  fresh i c := by
    unfold Crn.Unity.dxt1Kind
    dsimp only
    repeat' (first | with_reducible apply Crn_Unity_nextEndpoint_builds | builds_step)
  select c := by
    unfold Crn.Unity.dxt1Kind
    dsimp only
    repeat' (first | with_reducible apply Crn_Unity_selector_builds | builds_step)
  write i s p d := by
    unfold Crn.Unity.dxt1Kind
    dsimp only
    repeat' (first | with_reducible apply Crn_Unity_writeAlphaWords_builds
                   | with_reducible apply Crn_writeInt_builds | builds_step)

theorem Crn_Unity_dxt5Kind_builds {u : Crn.Unpacker} :
    LeK (@Crn.Unity.dxt5Kind Build.debug u) (@Crn.Unity.dxt5Kind Build.release u) where
  msg := rfl
  fresh i c := by
    unfold Crn.Unity.dxt5Kind
    dsimp only
    repeat' (first | with_reducible apply Crn_Unity_nextEndpoint_builds | builds_step)
  select c := by
    unfold Crn.Unity.dxt5Kind
    dsimp only
    repeat' (first | with_reducible apply Crn_Unity_selector_builds | builds_step)
  write i s p d := by
    unfold Crn.Unity.dxt5Kind
    dsimp only
    repeat' (first | with_reducible apply Crn_Unity_writeAlphaWords_builds
                   | with_reducible apply Crn_writeInt_builds | builds_step)

theorem Crn_Unity_dxt5aKind_builds {u : Crn.Unpacker} :
    LeK (@Crn.Unity.dxt5aKind Build.debug u) (@Crn.Unity.dxt5aKind Build.release u) where
  msg := rfl
  fresh i c := by
    unfold Crn.Unity.dxt5aKind
    dsimp only
    repeat' (first | with_reducible apply Crn_Unity_nextEndpoint_builds | builds_step)
  select c := by
    unfold Crn.Unity.dxt5aKind
    dsimp only
    repeat' (first | with_reducible apply Crn_Unity_selector_builds | builds_step)
  write i s p d := by
    unfold Crn.Unity.dxt5aKind
    dsimp only
    repeat' (first | with_reducible apply Crn_Unity_writeAlphaWords_builds
                   | with_reducible apply Crn_writeInt_builds | builds_step)

theorem Crn_Unity_dxnKind_builds {u : Crn.Unpacker} :
    LeK (@Crn.Unity.dxnKind Build.debug u) (@Crn.Unity.dxnKind Build.release u) where
  msg := rfl
  fresh i c := by
    unfold Crn.Unity.dxnKind
    dsimp only
    repeat' (first | with_reducible apply Crn_Unity_nextEndpoint_builds | builds_step)
  select c := by
    unfold Crn.Unity.dxnKind
    dsimp only
    repeat' (first | with_reducible apply Crn_Unity_selector_builds | builds_step)
  write i s p d := by
    unfold Crn.Unity.dxnKind
    dsimp only
    repeat' (first | with_reducible apply Crn_Unity_writeAlphaWords_builds
                   | with_reducible apply Crn_writeInt_builds | builds_step)

theorem Crn_Unity_etc1Kind_builds {u : Crn.Unpacker} :
    LeK (@Crn.Unity.etc1Kind Build.debug u) (@Crn.Unity.etc1Kind Build.release u) where
  msg := rfl
  fresh i c := by
    unfold Crn.Unity.etc1Kind
    dsimp only
    repeat' (first | with_reducible apply Crn_Unity_nextEndpoint_builds | builds_step)
  select c := by
    unfold Crn.Unity.etc1Kind
    dsimp only
    repeat' (first | with_reducible apply Crn_Unity_selector_builds | builds_step)
  write i s p d := by
    unfold Crn.Unity.etc1Kind
    dsimp only
    repeat' (first | with_reducible apply Crn_Unity_writeAlphaWords_builds
                   | with_reducible apply Crn_writeInt_builds | builds_step)

theorem Crn_Unity_etc2aKind_builds {u : Crn.Unpacker} :
    LeK (@Crn.Unity.etc2aKind Build.debug u) (@Crn.Unity.etc2aKind Build.release u) where
  msg := rfl
  fresh i c := by
    unfold Crn.Unity.etc2aKind
    dsimp only
    repeat' (first | with_reducible apply Crn_Unity_nextEndpoint_builds | builds_step)
  select c := by
    unfold Crn.Unity.etc2aKind
    dsimp only
    repeat' (first | with_reducible apply Crn_Unity_selector_builds | builds_step)
  write i s p d := by
    unfold Crn.Unity.etc2aKind
    dsimp only
    repeat' (first | with_reducible apply Crn_Unity_writeAlphaWords_builds
                   | with_reducible apply Crn_writeInt_builds | builds_step)

theorem Crn_Unity_unpackFormat_builds {u : Crn.Unpacker} {pitch bx by' : Nat} {k : Crn.Codec}
    {dst : List UInt8} :
    LeR (@Crn.Unity.unpackFormat Build.debug u pitch bx by' k dst)
      (@Crn.Unity.unpackFormat Build.release u pitch bx by' k dst) := by
  unfold Crn.Unity.unpackFormat
  dsimp only
  refine LeR.cond ?_ (LeR.cond ?_ (LeR.cond ?_ (LeR.cond ?_ (LeR.cond ?_ (LeR.cond ?_ ?_)))))
  · exact Crn_Unity_loop_builds fun _ _ _ => Crn_Unity_block_builds Crn_Unity_dxt1Kind_builds
  · exact Crn_Unity_loop_builds fun _ _ _ => Crn_Unity_block_builds Crn_Unity_dxt5Kind_builds
  · exact Crn_Unity_loop_builds fun _ _ _ => Crn_Unity_block_builds Crn_Unity_dxt5aKind_builds
  · exact Crn_Unity_loop_builds fun _ _ _ => Crn_Unity_block_builds Crn_Unity_dxnKind_builds
  · exact Crn_Unity_loop_builds fun _ _ _ => Crn_Unity_etcBlock_builds Crn_Unity_etc1Kind_builds
      fun _ _ _ _ _ _ _ => Crn_Unity_etc1Write_builds
  · exact Crn_Unity_loop_builds fun _ _ _ => Crn_Unity_etcBlock_builds Crn_Unity_etc2aKind_builds
      fun _ _ _ _ _ _ _ => Crn_Unity_etc2aWrite_builds
  · exact LeR.same _

theorem Crn_Unity_unpackLevel2_builds {u : Crn.Unpacker} {src : List UInt8} {srcSize dstSize : Nat}
    {rowPitch level : Nat} :
    LeR (@Crn.Unity.unpackLevel2 Build.debug u src srcSize dstSize rowPitch level)
      (@Crn.Unity.unpackLevel2 Build.release u src srcSize dstSize rowPitch level) := by
  unfold Crn.Unity.unpackLevel2
  repeat' (first | with_reducible apply Crn_Unity_unpackFormat_builds | builds_step)

theorem Crn_Unity_unpackLevel_builds {u : Crn.Unpacker} {dstSize rowPitch level : Nat} :
    LeR (@Crn.Unity.unpackLevel Build.debug u dstSize rowPitch level)
      (@Crn.Unity.unpackLevel Build.release u dstSize rowPitch level) := by
  unfold Crn.Unity.unpackLevel
  repeat' (first | with_reducible apply Crn_nextLevelOfs_builds
                 | with_reducible apply Crn_Unity_unpackLevel2_builds | builds_step)

theorem Crn_Unity_unityCrunchUnpackLevel_builds {data : List UInt8} {dataSize level : Nat} :
    LeR (@Crn.Unity.unityCrunchUnpackLevel Build.debug data dataSize level)
      (@Crn.Unity.unityCrunchUnpackLevel Build.release data dataSize level) := by
  unfold Crn.Unity.unityCrunchUnpackLevel
  repeat' (first | with_reducible apply Crn_Unity_unpackBegin_builds
                 | with_reducible apply Crn_Unity_unpackLevel_builds | builds_step)

theorem Crn_Unity_decodeUnityCrunch_builds {data : List UInt8} {width height : Nat}
    {image : List UInt32} :
    LeO (@Crn.Unity.decodeUnityCrunch Build.debug data width height image)
      (@Crn.Unity.decodeUnityCrunch Build.release data width height image) := by
  unfold Crn.Unity.decodeUnityCrunch
  have h := @Crn_Unity_unityCrunchUnpackLevel_builds data (asU 32 data.length) 0
  rcases h with h | h
  · rw [h]
    exact Or.inl rfl
  · rw [h]
    cases @Crn.Unity.unityCrunchUnpackLevel Build.release data (asU 32 data.length) 0 with
    | panic => exact LeO.same _
    | fail m => exact LeO.same _
    | ok h =>
      dsimp only
      split <;> first | with_reducible exact LeO.same _ | with_reducible exact decodeBc1_builds | with_reducible exact decodeBc3_builds | with_reducible exact decodeBc4_builds | with_reducible exact decodeBc5_builds | with_reducible exact decodeEtc1_builds | with_reducible exact decodeEtc2Rgb_builds | with_reducible exact decodeEtc2Rgba8_builds

end Verif.Proofs.Builds
