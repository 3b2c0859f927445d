import Verif.Base
import Verif.Core.Data
import Verif.W3c.Model
import Verif.Openid.Types
import Verif.Openid.Claims
import Verif.Issuer.State
import Verif.Issuer.CreateOffer
import Verif.Issuer.Authorize
import Verif.Issuer.Token
import Verif.Issuer.Credential
import Verif.Issuer.System
import Verif.Issuer.Demo
import Verif.Issuer.TokenLemmas
import Verif.Issuer.Writes
import Verif.Issuer.History
import Verif.Issuer.Spec
import Verif.Issuer.TokenProps
import Verif.Issuer.Frozen
import Verif.Issuer.AuthorizeLemmas
import Verif.Issuer.StepLemmas
import Verif.Issuer.AuthorizeProps
import Verif.Issuer.OfferLemmas
import Verif.Issuer.OfferProps
import Verif.Issuer.CredentialLemmas
import Verif.Issuer.CredentialSpec
import Verif.Issuer.CredentialProps
import Verif.Issuer.SessionProps
import Verif.Issuer.DeferredProps
import Verif.Issuer.RenewProps
import Verif.Openid.ClaimsProps
import Verif.Core.Json
import Verif.Dif.Model
import Verif.Dif.Props
import Verif.W3c.Proof
import Verif.W3c.Props
import Verif.Verifier.Model
import Verif.Verifier.Lemmas
import Verif.Verifier.Props
import Verif.Verifier.Demo
import Verif.Status.Model
import Verif.Status.Props
import Verif.Mdl.Model
import Verif.Mdl.Props
import Verif.Core.Base64
import Verif.Core.Gen
import Verif.Core.GenProps
import Verif.Core.JsonParse
import Verif.Core.Percent
import Verif.Core.Errors
import Verif.Core.ErrorProps
import Verif.Core.UrlEncode
import Verif.Core.UrlEncodeProps
import Verif.Holder.Model
import Verif.Holder.Issuance
import Verif.Holder.Presentation
import Verif.Holder.Lemmas
import Verif.Holder.Receive
import Verif.Holder.Spec
import Verif.Holder.Summary
import Verif.Holder.Inv
import Verif.Holder.StepInv
import Verif.Holder.Trace
import Verif.Holder.FlowProps
import Verif.Holder.ReceiveProps
import Verif.Holder.StatusText
import Verif.Holder.PresentProps
import Verif.Holder.EndProps
import Verif.Holder.Panic
import Verif.Holder.TrustProps
import Verif.Holder.KeepProps
import Verif.Holder.Demo
import Verif.Sched
import Verif.Issuer.Overlap
import Verif.Issuer.OverlapProps
import Verif.Issuer.NonceOverlap
import Verif.Issuer.OverlapDemo
import Verif.Verifier.Overlap
import Verif.Issuer.AcceptProps
import Verif.Issuer.GrantProps
import Verif.Issuer.IssueProps
import Verif.Issuer.EndToEnd
import Verif.Issuer.Panic
import Verif.Issuer.ExpiryProps
import Verif.Interop.Model
import Verif.Interop.Forward
import Verif.Interop.Link
import Verif.Interop.Props
import Verif.Interop.BatchProps
import Verif.Interop.Countable
import Verif.Interop.Demo
import Verif.Interop.CodeLink
import Verif.Interop.CodeProps
import Verif.Interop.CodeDemo
import Verif.Interop.Defer
import Verif.Interop.DeferProps
import Verif.Interop.DeferDemo
import Verif.Holder.Nonce
import Verif.Holder.NonceProps
import Verif.Interop.StaleProps
import Verif.Interop.StaleDemo
import Verif.Holder.Sched
import Verif.Holder.Overlap
import Verif.Holder.OverlapProps
import Verif.Holder.OverlapDemo
import Verif.Holder.PresentKeep
import Verif.Interop.Present
import Verif.Interop.PresentProps
import Verif.Interop.PresentDemo
import Verif.Wire.Serde
import Verif.Wire.Claim
import Verif.Wire.ClaimProps
import Verif.Wire.Detail
import Verif.Wire.DetailProps
import Verif.Wire.Request
import Verif.Wire.RequestLemmas
import Verif.Wire.RequestProps
import Verif.Wire.Struct
import Verif.Wire.Credential
import Verif.Wire.CredentialLemmas
import Verif.Wire.CredentialProps
import Verif.Wire.Issued
import Verif.Wire.IssuedProps
import Verif.TextStore
import Verif.Wire.Store
import Verif.Wire.StoreLemmas
import Verif.Wire.StoreText
import Verif.Wire.StoreProps
import Verif.Wire.Asked
import Verif.Wire.AskedLemmas
import Verif.Wire.AskedProps
import Verif.Wire.AskQuery
import Verif.Wire.AskQueryProps
import Verif.Wire.Answer
import Verif.Wire.AnswerProps
import Verif.Wire.Message
import Verif.Wire.MessageLemmas
import Verif.Wire.MessageProps
import Verif.Wire.IssuerMeta
import Verif.Wire.IssuerMetaProps
import Verif.Holder.Asks
import Verif.Wire.Net
import Verif.Wire.NetLemmas
import Verif.Wire.NetProps
import Verif.Wire.NetDemo
import Verif.Wire.Foreign
import Verif.Wire.ForeignProps
import Verif.Wire.ForeignMetaProps
import Verif.Wire.ForeignAskProps
import Verif.Wire.ForeignVcProps
import Verif.Wire.VerifierNet
import Verif.Wire.VerifierNetProps
import Verif.Wire.VerifierNetDemo
import Verif.Wire.VcText
import Verif.Wire.WalletState
import Verif.Wire.WalletStateProps
import Verif.Wire.WalletStore
import Verif.Wire.WalletStoreProps
import Verif.Wire.WalletStoreDemo
import Verif.Wire.PublishProps
import Verif.Wire.Macro
import Verif.Wire.MacroProps
import Verif.Issuer.BindProps
import Verif.Issuer.ScopeProps
import Verif.Issuer.LifetimeProps
import Verif.Server.Model
import Verif.Server.Props
import Verif.Server.Datasets
import Verif.Server.Demo
import Verif.Server.LoginProps
import Verif.Server.Verifier
import Verif.Server.VerifierProps
import Verif.Server.Redirect
import Verif.Server.RedirectProps
import Verif.Server.RedirectDemo
import Verif.Wire.Form
import Verif.Wire.FormNet
import Verif.Wire.FormLemmas
import Verif.Wire.FormProps
import Verif.Wire.QueryProps
import Verif.Wire.FormDemo
import Verif.App.Model
import Verif.App.Lemmas
import Verif.App.Calls
import Verif.App.ListLemmas
import Verif.App.KeepLemmas
import Verif.App.ListProps
import Verif.App.KeepProps
import Verif.App.ScreenProps
import Verif.App.LinkProps
import Verif.App.Demo
import Verif.Mdl.Cbor
import Verif.Mdl.Text
import Verif.Mdl.TextLemmas
import Verif.Mdl.TextProps
import Verif.Mdl.TextDemo
import Verif.App.ShareProps
import Verif.App.ShareDemo
import Verif.App.CollectLemmas
import Verif.App.CollectProps
import Verif.App.CollectDemo
import Verif.App.AnswerProps
import Verif.App.AnswerDemo
import Verif.Issuer.Clients
import Verif.Issuer.RegisterProps
import Verif.Server.Stores
import Verif.App.StoresLemmas
import Verif.App.StoresProps
import Verif.App.StoresDemo
import Verif.Server.Overlap
import Verif.Server.OverlapProps
import Verif.Server.OverlapDemo
import Verif.Wire.ForeignDemo
import Verif.Apart
import Verif.Issuer.ApartProps
import Verif.Verifier.ApartProps
import Verif.Clock
import Verif.Verifier.ClockProps
import Verif.Issuer.ClockProps
import Verif.Issuer.ExactProps
import Verif.Issuer.ExactIssueProps
import Verif.App.Shell
import Verif.App.ShellLemmas
import Verif.App.ShellProps
import Verif.App.ShellConsent
import Verif.App.ShellDelete
import Verif.App.ShellChoose
import Verif.App.ShellBack
import Verif.App.ShellPaste
import Verif.App.ShellDetail
import Verif.App.ShellDemo
import Verif.Holder.Serial
import Verif.Holder.SerialDemo
import Verif.Conform.Data
import Verif.Conform.Provider
import Verif.Conform.IssuerTests
import Verif.Conform.FlowTests
import Verif.Wire.CreateRequest
import Verif.Wire.CreateRequestProps
import Verif.Conform.VerifierTests
import Verif.Conform.HolderTests
import Verif.Conform.TypeTests
import Verif.Status.ErrorProps
import Verif.Wire.VpTextProps
import Verif.Verifier.BindingProps
import Verif.Issuer.KeysProps
import Verif.Issuer.LimitProps
import Verif.Mdl.DocTypeProps
import Verif.Break
import Verif.Issuer.BreakProps
import Verif.Verifier.BreakProps
import Verif.Interop.CircleProps
import Verif.Interop.CircleDemo
import Verif.Interop.ScopeProps
import Verif.Interop.ScopeDemo
import Verif.Holder.BreakProps
import Verif.Holder.BreakDemo
import Verif.Interop.StopProps
import Verif.Interop.StopDemo
import Verif.Interop.FormatProps
import Verif.Interop.FormatDemo
import Verif.Expunge
import Verif.Issuer.ExpungeProps
import Verif.Issuer.ExpungeDemo
import Verif.Verifier.ExpungeProps
import Verif.Core.JsonGrammar
import Verif.Core.JsonGrammarLemmas
import Verif.Core.Dumps
import Verif.Wire.SpellingProps
import Verif.Wire.SpellingDemo
import Verif.Holder.HomeProps
import Verif.Holder.HomeDemo
import Verif.App.Address
import Verif.App.AddressProps
import Verif.App.AddressDemo
import Verif.Holder.HomeOverlap
import Verif.Holder.HomeOverlapDemo
import Verif.Holder.ContentOverlap
import Verif.Holder.ContentOverlapDemo
import Verif.Macros.Model
import Verif.Macros.Props
import Verif.Macros.MoreProps
import Verif.Macros.Agree
import Verif.Macros.Demo
import Verif.Wire.Encryption
import Verif.Wire.EncryptionProps
