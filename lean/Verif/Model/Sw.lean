import Verif.Model.Res
/-!
# Status words, src/sw.h and src/helpers/sw_result.h
-/
namespace Ergo

namespace Sw
/-! Constants of src/sw.h. -/
def ok : UInt16 := 0x9000
def deny : UInt16 := 0x6985
def wrongP1P2 : UInt16 := 0x6A86
def wrongDataLength : UInt16 := 0x6A87
def insNotSupported : UInt16 := 0x6D00
def claNotSupported : UInt16 := 0x6E00
def busy : UInt16 := 0xB000
def badSessionId : UInt16 := 0xB002
def wrongSubcommand : UInt16 := 0xB003
def badState : UInt16 := 0xB0FF
def badTokenId : UInt16 := 0xE001
def badTokenValue : UInt16 := 0xE002
def badContextExtensionSize : UInt16 := 0xE003
def badDataInput : UInt16 := 0xE004
def badBoxId : UInt16 := 0xE005
def badTokenIndex : UInt16 := 0xE006
def badFrameIndex : UInt16 := 0xE007
def badInputCount : UInt16 := 0xE008
def badOutputCount : UInt16 := 0xE009
def tooManyTokens : UInt16 := 0xE00A
def tooManyInputs : UInt16 := 0xE00B
def tooManyDataInputs : UInt16 := 0xE00C
def tooManyInputFrames : UInt16 := 0xE00D
def tooManyOutputs : UInt16 := 0xE00E
def hasherError : UInt16 := 0xE00F
def bufferError : UInt16 := 0xE010
def u64Overflow : UInt16 := 0xE011
def bip32BadPath : UInt16 := 0xE012
def internalCryptoError : UInt16 := 0xE013
def notEnoughData : UInt16 := 0xE014
def tooMuchData : UInt16 := 0xE015
def addressGenerationFailed : UInt16 := 0xE016
def schnorrSigningFailed : UInt16 := 0xE017
def badFrameSignature : UInt16 := 0xE018
def badNetType : UInt16 := 0xE019
def smallChunk : UInt16 := 0xE01A
def bip32FormattingFailed : UInt16 := 0xE101
def addressFormattingFailed : UInt16 := 0xE102
end Sw

/-- `sw_from_tx_full_result`, sw_result.h:7-54, on error codes. -/
def FullErr.sw : FullErr → UInt16
  | .badTokenId => Sw.badTokenId
  | .badTokenValue => Sw.badTokenValue
  | .badContextExtensionSize => Sw.badContextExtensionSize
  | .badDataInput => Sw.badDataInput
  | .badInputId => Sw.badBoxId
  | .badTokenIndex => Sw.badTokenIndex
  | .badFrameIndex => Sw.badFrameIndex
  | .badInputCount => Sw.badInputCount
  | .badOutputCount => Sw.badOutputCount
  | .tooManyTokens => Sw.tooManyTokens
  | .tooManyInputs => Sw.tooManyInputs
  | .tooManyDataInputs => Sw.tooManyDataInputs
  | .tooManyInputFrames => Sw.tooManyInputFrames
  | .tooManyOutputs => Sw.tooManyOutputs
  | .tooMuchData => Sw.tooMuchData
  | .hasher => Sw.hasherError
  | .badState => Sw.badState
  | .u64Overflow => Sw.u64Overflow
  | .smallChunk => Sw.smallChunk

/-- `sw_from_tx_box_result`, sw_result.h:56-83, on error codes. -/
def BoxErr.sw : BoxErr → UInt16
  | .badTokenIndex => Sw.badTokenIndex
  | .badTokenId => Sw.badTokenId
  | .badTokenValue => Sw.badTokenValue
  | .tooManyTokens => Sw.tooManyTokens
  | .tooMuchData => Sw.tooMuchData
  | .hasher => Sw.hasherError
  | .badState => Sw.badState
  | .u64Overflow => Sw.u64Overflow
  | .smallChunk => Sw.smallChunk

end Ergo
