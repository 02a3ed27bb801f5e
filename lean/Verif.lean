import Verif.Model.Main
import Verif.Model.Shipped
import Verif.Spec.Shipped
import Verif.Lemmas.Core
import Verif.Lemmas.Main
import Verif.Lemmas.Trace
import Verif.Lemmas.Stream
import Verif.Lemmas.Debounce
import Verif.Lemmas.OneKey
import Verif.Lemmas.Typing
import Verif.Props.Buffer
import Verif.Props.Debounce
import Verif.Props.Device
import Verif.Props.Hook
import Verif.Props.Modifiers
import Verif.Props.Output
import Verif.Props.Repeat
import Verif.Props.Typing
import Verif.Spec.Tables
import Verif.Lemmas.Actions
import Verif.Lemmas.Put
import Verif.Lemmas.Dip
import Verif.Props.Keymaps
import Verif.Props.Selection
import Verif.Lemmas.Frame
import Verif.Lemmas.Leds
import Verif.Props.Leds
import Verif.Model.Avr
import Verif.Model.Arch328p
import Verif.Model.Arch2560
import Verif.Spec.Pins
import Verif.Lemmas.Pins
import Verif.Lemmas.Boards
import Verif.Props.Pins
import Verif.Props.Strobe
import Verif.Lemmas.Rows
import Verif.Props.Rows
import Verif.Model.Tick
import Verif.Spec.Tick
import Verif.Lemmas.Tick
import Verif.Props.Tick
import Verif.Model.ArchTest
import Verif.Spec.TestArch
import Verif.Lemmas.TestArch
import Verif.Props.TestArch
import Verif.Lemmas.Switches
import Verif.Spec.Clock
import Verif.Lemmas.Clock
import Verif.Props.Switches
import Verif.Props.Clock
import Verif.Spec.Machine
import Verif.Lemmas.Machine
import Verif.Props.Machine
import Verif.Spec.Typed
import Verif.Lemmas.Typed
import Verif.Props.Typed
import Verif.Spec.Pulse
import Verif.Lemmas.Pulse
import Verif.Props.Pulse
import Verif.Spec.Letters
import Verif.Props.Letters
import Verif.Model.Whole
import Verif.Spec.Whole
import Verif.Lemmas.Whole
import Verif.Lemmas.Kb
import Verif.Props.Whole
import Verif.Model.Build
import Verif.Spec.Build
import Verif.Props.Build
import Verif.Lemmas.Lamps
import Verif.Props.Lamps
import Verif.Lemmas.Delivery
import Verif.Lemmas.Noise
import Verif.Props.Delivery
import Verif.Props.Program
import Verif.Spec.Chars
import Verif.Spec.Typable
import Verif.Lemmas.Chars
import Verif.Lemmas.Typable
import Verif.Lemmas.Shift
import Verif.Props.Chars
import Verif.Props.Keys
import Verif.Spec.Trap
import Verif.Lemmas.Trap
import Verif.Lemmas.Trapped
import Verif.Lemmas.Agree
import Verif.Props.Safety
import Verif.Spec.Dips
import Verif.Lemmas.Dips
import Verif.Lemmas.Dipped
import Verif.Props.Dips
import Verif.Model.Machine
import Verif.Spec.Interrupts
import Verif.Lemmas.AgreeBoard
import Verif.Lemmas.Interrupts
import Verif.Props.Interrupts
import Verif.Spec.Osi
import Verif.Lemmas.Osi
import Verif.Props.Osi
import Verif.Spec.Channel
import Verif.Lemmas.Channel
import Verif.Props.Channel
import Verif.Spec.Host
import Verif.Lemmas.Host
import Verif.Props.Host
import Verif.Spec.Ticks
import Verif.Lemmas.Ticks
import Verif.Props.Ticks
import Verif.Tests.TestMaps
import Verif.Tests.Buffer
import Verif.Tests.Repeat
import Verif.Tests.Modifiers
import Verif.Tests.Keymaps
import Verif.Tests.Virtual
import Verif.Tests.Keys
import Verif.Model.Pcb
import Verif.Model.BoardData
import Verif.Model.Circuit
import Verif.Spec.Circuit
import Verif.Spec.KeyPlaces
import Verif.Lemmas.Circuit
import Verif.Lemmas.BoardRoles
import Verif.Lemmas.BoardFacts328
import Verif.Lemmas.BoardFacts2560
import Verif.Props.Matrix
import Verif.Spec.Legends
import Verif.Props.Legends
import Verif.Spec.Sockets
import Verif.Lemmas.Sockets
import Verif.Lemmas.SocketPins
import Verif.Props.Sockets
import Verif.Spec.Ace
import Verif.Props.Ace
import Verif.Lemmas.Pause
import Verif.Props.Shipped
import Verif.Spec.Adapter
import Verif.Props.Adapter
import Verif.Model.OsiBoard
import Verif.Spec.OsiBoard
import Verif.Props.OsiBoard
import Verif.Spec.Computer
import Verif.Lemmas.Computer
import Verif.Props.Computer
import Verif.Props.SafeUse
import Verif.Model.CNames
import Verif.Model.CLang
import Verif.Model.CSource
import Verif.Model.CProg
import Verif.Spec.CSource
import Verif.Lemmas.CAttr
import Verif.Lemmas.CRun
import Verif.Lemmas.CRepeat
import Verif.Lemmas.CBuffer
import Verif.Lemmas.CDevice
import Verif.Lemmas.CModifiers
import Verif.Lemmas.CKeymaps
import Verif.Lemmas.CSetup
import Verif.Lemmas.CCore
import Verif.Lemmas.CAction
import Verif.Lemmas.CScan
import Verif.Lemmas.CMain
import Verif.Lemmas.CTrap
import Verif.Props.CSource
import Verif.Lemmas.CSim
import Verif.Lemmas.CHw328Read
import Verif.Lemmas.CHw2560
import Verif.Lemmas.CHwTarget
import Verif.Lemmas.CHwSim
import Verif.Lemmas.CHwMain
import Verif.Lemmas.CHwBits
import Verif.Spec.CBoard
import Verif.Props.CHw
import Verif.Spec.Typist
import Verif.Lemmas.Typist
import Verif.Props.Typist
import Verif.Spec.Strokes
import Verif.Lemmas.Strokes
import Verif.Props.Strokes
import Verif.Props.Ascii
import Verif.Spec.Pool
import Verif.Lemmas.Pool
import Verif.Props.Pool
import Verif.Spec.Locks
import Verif.Lemmas.Locks
import Verif.Props.Locks
import Verif.Spec.Holds
import Verif.Lemmas.Holds
import Verif.Props.Holds
import Verif.Model.CLex
import Verif.Model.CNameTable
import Verif.Model.CText
import Verif.Model.CTokens
import Verif.Model.CParse
import Verif.Model.CUnits
import Verif.Spec.CText
import Verif.Lemmas.CTree
import Verif.Lemmas.CNameTable
import Verif.Lemmas.CUnitList
import Verif.Lemmas.CTextLex1
import Verif.Lemmas.CTextLex2
import Verif.Lemmas.CTextLex3
import Verif.Lemmas.CTextUnits328
import Verif.Lemmas.CTextUnits2560
import Verif.Lemmas.CText
import Verif.Props.CText
import Verif.Spec.Timing
import Verif.Lemmas.Timing
import Verif.Props.Timing
import Verif.Spec.OutputTiming
import Verif.Lemmas.OutputTiming
import Verif.Props.OutputTiming
import Verif.Spec.Bounce
import Verif.Lemmas.Bounce
import Verif.Props.Bounce
import Verif.Spec.Fingers
import Verif.Props.Fingers
import Verif.Lemmas.CAlike
import Verif.Lemmas.CHwCausal
import Verif.Lemmas.CHwLoop
import Verif.Lemmas.CHwHead
import Verif.Spec.Looks
import Verif.Lemmas.Looks
import Verif.Props.Looks
import Verif.Props.EveryText
import Verif.Lemmas.CSane
import Verif.Lemmas.CHwSane
import Verif.Spec.Faults
import Verif.Props.Faults
import Verif.Spec.Loose
import Verif.Lemmas.Loose
import Verif.Props.Loose
import Verif.Props.Stale
import Verif.Spec.Movers
import Verif.Spec.Keystrokes
import Verif.Lemmas.Movers
import Verif.Lemmas.Keystrokes
import Verif.Props.Movers
import Verif.Spec.AnyBoard
import Verif.Spec.AnyText
import Verif.Lemmas.AnyText
import Verif.Props.AnyBoard
import Verif.Props.AnyText
import Verif.Spec.Repeats
import Verif.Spec.SpotDeeds
import Verif.Lemmas.Repeats
import Verif.Props.Repeats
import Verif.Spec.Literal
import Verif.Lemmas.Literal
import Verif.Props.Literal
import Verif.Spec.Calls
import Verif.Lemmas.Calls
import Verif.Props.Calls
import Verif.Props.Exactly
import Verif.Spec.Select
import Verif.Props.Select
import Verif.Spec.TestBoard
import Verif.Props.TestBoard
import Verif.Spec.FastRepeat
import Verif.Props.FastRepeat
import Verif.Props.NulStream
import Verif.Spec.Swaps
import Verif.Lemmas.Swaps
import Verif.Props.Swaps
import Verif.Spec.Rolls
import Verif.Lemmas.Rolls
import Verif.Props.Rolls
import Verif.Spec.Depth
import Verif.Lemmas.Depth
import Verif.Props.Depth
import Verif.Spec.Waits
import Verif.Lemmas.Waits
import Verif.Lemmas.PulseCount
import Verif.Props.Waits
import Verif.Spec.Ghosts
import Verif.Lemmas.Ghosts
import Verif.Lemmas.GhostFacts328
import Verif.Lemmas.GhostFacts2560
import Verif.Lemmas.GhostFactsEnc
import Verif.Props.Ghosts
import Verif.Spec.GhostText
import Verif.Lemmas.GhostText
import Verif.Props.GhostText
