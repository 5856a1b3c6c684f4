/-!
# Basic types of the model

Common C types and error numbers of the li_can_slv stack.
-/
namespace LiCan

/-- `byte_t` (8 bit). -/
abbrev Byte := UInt8

/-- `li_can_slv_errorcode_t`, `uint16_t`
(include/li_can_slv/error/li_can_slv_error_types.h). -/
abbrev Err := BitVec 16

/-- Store into a `uint8_t`. -/
@[inline] abbrev u8 (n : Nat) : Nat := n % 2^8
/-- Store into a `uint16_t`. -/
@[inline] abbrev u16 (n : Nat) : Nat := n % 2^16
/-- Store into a `uint32_t`. -/
@[inline] abbrev u32 (n : Nat) : Nat := n % 2^32

/-- A CAN frame as handed to the driver (`can_main_hw_send_msg`,
source/arch/canpie_adapter/io_can_main_hw.c:334-358): identifier, data length, data. -/
structure Frame where
  id   : Nat
  dlc  : Nat
  data : List Byte
deriving DecidableEq, Repr, Inhabited

/-!
## Error numbers

include/li_can_slv/error/io_can_errno.h:101-236.  Each is
`MSG_SG_SHIFT(MSG_SUBGROUP_CAN_CAN) | nnn = 0x5000 | nnn`.
-/
namespace E
@[simp] abbrev ok : Err := 0x0000#16                      -- :101
@[simp] abbrev tnlAlreadyUsed : Err := 0x5001#16          -- :109
@[simp] abbrev tnlWrongState : Err := 0x5002#16           -- :110
@[simp] abbrev undefinedIsrId : Err := 0x5003#16          -- :111
@[simp] abbrev invalidBaudrate : Err := 0x5005#16         -- :113
@[simp] abbrev overObjectNr : Err := 0x500A#16            -- :118
@[simp] abbrev maxModules : Err := 0x500C#16              -- :120
@[simp] abbrev redeclaredNr : Err := 0x500D#16            -- :121
@[simp] abbrev rxWrongNr : Err := 0x5011#16               -- :125
@[simp] abbrev rxWrongDlc : Err := 0x5012#16              -- :126
@[simp] abbrev overTablePos : Err := 0x5017#16            -- :131
@[simp] abbrev nrOfRxData : Err := 0x5015#16              -- :129
@[simp] abbrev initFailed : Err := 0x5019#16              -- :135
@[simp] abbrev monRxWrongNr : Err := 0x5018#16            -- :132
@[simp] abbrev monRxWrongDlc : Err := 0x501A#16           -- :137
@[simp] abbrev monTxWrongNr : Err := 0x501B#16            -- :138
@[simp] abbrev monTxWrongDlc : Err := 0x501C#16           -- :139
@[simp] abbrev monNrOfRxData : Err := 0x501F#16           -- :142
@[simp] abbrev monNrOfTxData : Err := 0x5020#16           -- :143
@[simp] abbrev mainMonDataRx : Err := 0x5021#16           -- :144
@[simp] abbrev mainMonDataTx : Err := 0x5022#16           -- :145
@[simp] abbrev monRxDataCnfg : Err := 0x502A#16           -- :153
@[simp] abbrev monTxDataCnfg : Err := 0x502B#16           -- :154
@[simp] abbrev noMsgObjFree : Err := 0x5023#16            -- :146
@[simp] abbrev rxWrongSlot : Err := 0x5024#16             -- :147
@[simp] abbrev rxDataCnfg : Err := 0x5028#16              -- :151
@[simp] abbrev wrongTablePos : Err := 0x502C#16           -- :155
@[simp] abbrev asyncRxOverflow : Err := 0x502D#16         -- :156
@[simp] abbrev asyncDataTxOverflow : Err := 0x5030#16     -- :159
@[simp] abbrev asyncDataTxDlc : Err := 0x5031#16          -- :160
@[simp] abbrev typeNotFound : Err := 0x5032#16            -- :161
@[simp] abbrev unknownComponent : Err := 0x5034#16        -- :163
@[simp] abbrev infoBadCrc : Err := 0x5074#16              -- :232
@[simp] abbrev dloadInProgress : Err := 0x5035#16         -- :164
@[simp] abbrev bufOverflow : Err := 0x5037#16             -- :166
@[simp] abbrev bufUnderflow : Err := 0x5038#16            -- :167
@[simp] abbrev byteCountNotMatch : Err := 0x5039#16       -- :168
@[simp] abbrev invalidSysDlc : Err := 0x503B#16           -- :170
@[simp] abbrev invalidSilentAwake : Err := 0x503C#16      -- :171
@[simp] abbrev tnlInvalidCommand : Err := 0x503F#16       -- :174
@[simp] abbrev tnlBusy : Err := 0x5040#16                 -- :175
@[simp] abbrev uloadBlockNack : Err := 0x5041#16          -- :176
@[simp] abbrev changingToInvalidNr : Err := 0x5043#16     -- :178
@[simp] abbrev connectStartup125 : Err := 0x5052#16       -- :195
@[simp] abbrev connectStartup250 : Err := 0x5053#16       -- :196
@[simp] abbrev connectStartup500 : Err := 0x5054#16       -- :197
@[simp] abbrev connectStartup1000 : Err := 0x5055#16      -- :198
@[simp] abbrev connectOnline125 : Err := 0x5056#16        -- :199
@[simp] abbrev connectOnline250 : Err := 0x5057#16        -- :200
@[simp] abbrev connectOnline500 : Err := 0x5058#16        -- :201
@[simp] abbrev connectOnline1000 : Err := 0x5059#16       -- :202
@[simp] abbrev undefinedConnType : Err := 0x505A#16       -- :203
@[simp] abbrev moduleNotFound : Err := 0x505B#16          -- :204
@[simp] abbrev asyncUnknownCommand : Err := 0x5064#16     -- :215
@[simp] abbrev sysUnknownCommand : Err := 0x5065#16       -- :216
@[simp] abbrev typeChangeFailed : Err := 0x5066#16        -- :217
@[simp] abbrev notImplemented : Err := 0x5068#16          -- :219
@[simp] abbrev notAllowedBroadcast : Err := 0x506C#16     -- :223
@[simp] abbrev tunnelHndlNotDefined : Err := 0x506D#16    -- :225
@[simp] abbrev errQueueFull : Err := 0x506F#16            -- :227
@[simp] abbrev errNotInitialized : Err := 0x5070#16       -- :228
@[simp] abbrev errNoEntry : Err := 0x5071#16              -- :229
@[simp] abbrev dloadAddHandle : Err := 0x5072#16          -- :230
@[simp] abbrev uloadAddHandle : Err := 0x5073#16          -- :231
@[simp] abbrev xloadInfoBadCrc : Err := 0x5074#16         -- :232
@[simp] abbrev notAllowedDirect : Err := 0x5075#16        -- :233
@[simp] abbrev configInvalid : Err := 0x5077#16           -- :235
@[simp] abbrev msgSend : Err := 0x5078#16                 -- :236
end E

/-- Update of a C array modelled as a function (`a[k] = v`). -/
def upd {α : Type _} (f : Nat → α) (k : Nat) (v : α) : Nat → α :=
  fun i => if i = k then v else f i

@[simp] theorem upd_same {α : Type _} (f : Nat → α) (k : Nat) (v : α) : upd f k v k = v := by
  simp [upd]

theorem upd_other {α : Type _} (f : Nat → α) {k i : Nat} (v : α) (h : i ≠ k) :
    upd f k v i = f i := by
  simp [upd, h]

end LiCan
