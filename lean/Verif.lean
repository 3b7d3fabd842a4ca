import Verif.Lemmas.Except
import Verif.Lemmas.Bytes
import Verif.Props.C21
import Verif.Props.C22
import Verif.Props.C23
import Verif.Lemmas.Header
import Verif.Lemmas.Inv
import Verif.Props.C01
import Verif.Props.C02
import Verif.Props.C05
import Verif.Props.C06
import Verif.Props.C07
import Verif.Lemmas.Lookup
import Verif.Props.C13
import Verif.Props.C10
import Verif.Lemmas.Frame
import Verif.Lemmas.Hooks
import Verif.Lemmas.Effect
import Verif.Props.C27
import Verif.Props.C29
import Verif.Spec.Layout
import Verif.Lemmas.Walk
import Verif.Props.C32
import Verif.Lemmas.UpdateLayout
import Verif.Spec.Machine
import Verif.Lemmas.Stores
import Verif.Lemmas.Shape
import Verif.Props.C24
import Verif.Props.C25
import Verif.Props.C26
import Verif.Props.C34
import Verif.Spec.Moves
import Verif.Lemmas.Refine
import Verif.Lemmas.Moves
import Verif.Lemmas.Life
import Verif.Lemmas.Check
import Verif.Props.C39
import Verif.Props.C03
import Verif.Props.C04
import Verif.Props.C08
import Verif.Props.C09
import Verif.Props.C28
import Verif.Spec.Payload
import Verif.Lemmas.Accept
import Verif.Spec.Buffer
import Verif.Spec.Birth
import Verif.Lemmas.CreateLayout
import Verif.Lemmas.Allocate
import Verif.Lemmas.CreateStores
import Verif.Lemmas.ExtList
import Verif.Spec.Creators
import Verif.Props.C14
import Verif.Props.C15
import Verif.Props.C16
import Verif.Props.C17
import Verif.Props.C18
import Verif.Props.C19
import Verif.Props.C20
import Verif.Props.C33
import Verif.Lemmas.Chunks
import Verif.Props.C31
import Verif.Model.Borsh
import Verif.Spec.Wire
import Verif.Lemmas.Wire
import Verif.Props.C30
import Verif.Model.Client
import Verif.Model.Cpi
import Verif.Model.Interface
import Verif.Model.Proxy
import Verif.Spec.Cpi
import Verif.Lemmas.Decimal
import Verif.Props.C37
import Verif.Props.C38
import Verif.Lemmas.Proxy
import Verif.Props.C36
import Verif.Props.C40
import Verif.Model.Bridge
import Verif.Spec.Custody
import Verif.Lemmas.Bridge
import Verif.Lemmas.Custody
import Verif.Spec.Reads
import Verif.Lemmas.Reads
import Verif.Spec.WellFormed
import Verif.Lemmas.WellFormed
import Verif.Props.C41
import Verif.Props.C35
import Verif.Spec.Census
import Verif.Lemmas.Census
import Verif.Props.C11
import Verif.Props.C12
import Verif.Props.Corrupt
import Verif.Props.Genesis
import Verif.Props.C42
import Verif.Model.Calls
import Verif.Model.Mint
import Verif.Model.Json
import Verif.Spec.Calls
import Verif.Spec.Packet
import Verif.Lemmas.Mint
import Verif.Props.C43
import Verif.Props.C44
import Verif.Props.C45
import Verif.Spec.Privileges
import Verif.Lemmas.Privileges
import Verif.Props.C46
import Verif.Model.BridgeCreate
import Verif.Spec.Bridged
import Verif.Lemmas.BridgeCreate
import Verif.Props.C47
import Verif.Spec.Accepts
import Verif.Lemmas.Accepts
import Verif.Props.C48
import Verif.Props.C49
import Verif.Spec.Readable
import Verif.Lemmas.Readable
import Verif.Props.C50
import Verif.Spec.Edits
import Verif.Lemmas.Edits
import Verif.Props.C51
import Verif.Spec.Mints
import Verif.Lemmas.Births
import Verif.Props.C52
import Verif.Spec.Tokens
import Verif.Lemmas.BridgeLive
import Verif.Props.C53
import Verif.Model.Js
import Verif.Spec.Js
import Verif.Lemmas.Js
import Verif.Props.C54
import Verif.Spec.JsWrites
import Verif.Lemmas.JsWrites
import Verif.Props.C55
import Verif.Model.JsMint
import Verif.Spec.JsMint
import Verif.Lemmas.JsMint
import Verif.Props.C56
import Verif.Model.JsUpdate
import Verif.Spec.JsUpdate
import Verif.Lemmas.JsUpdate
import Verif.Props.C57
import Verif.Model.Macros
import Verif.Props.C58
import Verif.Model.JsCalls
import Verif.Spec.JsCalls
import Verif.Props.C59
import Verif.Props.C60
import Verif.Model.InterfaceCalls
import Verif.Spec.InterfaceCalls
import Verif.Props.C61
import Verif.Model.BridgeClient
import Verif.Spec.BridgeClient
import Verif.Props.C62
import Verif.Spec.Inline
import Verif.Lemmas.Inline
import Verif.Props.C63
import Verif.Model.ProxyClient
import Verif.Spec.ProxyAsset
import Verif.Spec.ProxyClient
import Verif.Lemmas.ProxyCreate
import Verif.Props.C64
import Verif.Spec.Capture
import Verif.Props.C65
import Verif.Spec.ProxyLife
import Verif.Spec.Cut
import Verif.Spec.Trail
import Verif.Lemmas.ProxyTransfer
import Verif.Lemmas.Cut
import Verif.Lemmas.Trail
import Verif.Lemmas.Utf8
import Verif.Props.C66
import Verif.Spec.Exact
import Verif.Props.C67
import Verif.Spec.First
import Verif.Spec.Forge
import Verif.Lemmas.First
import Verif.Lemmas.Forge
import Verif.Props.C68
import Verif.Props.C69
import Verif.Model.JsSearch
import Verif.Spec.JsSearch
import Verif.Lemmas.JsSearch
import Verif.Props.C70
import Verif.Model.Properties
import Verif.Spec.Properties
import Verif.Lemmas.Properties
import Verif.Props.C71
import Verif.Model.RustAsset
import Verif.Spec.RustAsset
import Verif.Lemmas.RustAsset
import Verif.Props.C72
import Verif.Model.JsTyped
import Verif.Spec.JsTyped
import Verif.Lemmas.JsTyped
import Verif.Props.C73
import Verif.Spec.Rent
import Verif.Lemmas.Rent
import Verif.Props.C74
import Verif.Spec.InBounds
import Verif.Lemmas.InBounds
import Verif.Props.C75
import Verif.Model.Memory
import Verif.Spec.Memory
import Verif.Lemmas.Memory
import Verif.Lemmas.Overwrite
import Verif.Props.C76
import Verif.Spec.Strangers
import Verif.Lemmas.Strangers
import Verif.Props.C77
import Verif.Spec.Plant
import Verif.Props.C78
import Verif.Lemmas.Near
import Verif.Lemmas.Agree
import Verif.Spec.Reach
import Verif.Lemmas.Reach
import Verif.Props.C79
import Verif.Model.Errors
import Verif.Spec.Errors
import Verif.Lemmas.Errors
import Verif.Lemmas.Reasons
import Verif.Lemmas.ReasonsExt
import Verif.Props.C80
import Verif.Model.Idl
import Verif.Spec.Idl
import Verif.Lemmas.Idl
import Verif.Props.C81
import Verif.Model.Codama
import Verif.Model.IdlFiles
import Verif.Spec.Described
import Verif.Lemmas.Described
import Verif.Props.C82
import Verif.Model.Builders
import Verif.Spec.Builders
import Verif.Lemmas.Builders
import Verif.Model.BridgeBuilders
import Verif.Spec.BridgeBuilders
import Verif.Lemmas.BridgeBuilders
import Verif.Props.C83
import Verif.Tests.Base
import Verif.Tests.JsLife
import Verif.Tests.JsDelegate
import Verif.Tests.JsGroup
import Verif.Tests.JsUpdate
import Verif.Tests.JsCreators
import Verif.Tests.JsExt
import Verif.Tests.Rust
import Verif.Tests.Types
import Verif.Tests.Programs
import Verif.Props.C84
import Verif.Spec.Orphan
import Verif.Props.C85
import Verif.Spec.Ending
import Verif.Lemmas.Ending
import Verif.Lemmas.Finishing
import Verif.Props.C86
import Verif.Spec.Local
import Verif.Lemmas.Local
import Verif.Props.C87
import Verif.Spec.Unasked
import Verif.Lemmas.Monotone
import Verif.Lemmas.Unasked
import Verif.Props.C88
import Verif.Spec.Again
import Verif.Lemmas.Again
import Verif.Lemmas.AgainRecord
import Verif.Props.C89
import Verif.Model.Align
import Verif.Spec.Aligned
import Verif.Lemmas.Aligned
import Verif.Props.C90
import Verif.Spec.Undo
import Verif.Lemmas.Undo
import Verif.Props.C91
import Verif.Spec.Crash
import Verif.Lemmas.Crash
import Verif.Lemmas.CrashUpdate
import Verif.Lemmas.CrashCreate
import Verif.Props.C92
import Verif.Spec.Saying
import Verif.Lemmas.Saying
import Verif.Props.C93
import Verif.Spec.Since
import Verif.Lemmas.Since
import Verif.Props.C94
import Verif.Spec.Locks
import Verif.Props.C95
import Verif.Props.C96
import Verif.Props.C97
import Verif.Props.C98
