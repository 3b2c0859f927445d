# Formal model of vercre: design

The model is in Lean 4 under `lean/Verif/`. It models the Rust sources in `/repo` function by function. Every
definition of the model cites the file and lines it stands for, and says where it simplifies.
Property theorems live in files called `…Props.lean`, apart from the model files and from helper lemmas.
`properties.jsonl` is the list of properties, `MANIFEST.json` maps each to its theorems.

## 1. Shape of the model

* **Endpoints** are functions `World → Except Err α × World`. The world carries the state store (a function from key
  to optional state), the clock, a stream of random tokens with a counter of how many were drawn, and a fault schedule.
  After an error the world produced so far is kept, because the Rust code does not roll back.
* **State store** (`StateStore::{get,put,purge}`) is an external provider. Each `put`/`purge` call may succeed, fail
  without effect, or take effect and then report failure; each `get` may fail. The schedule of faults is an arbitrary
  function of the operation counter, so theorems hold for every failure pattern. As every store error is returned
  immediately with `?`, a crash between two store operations leaves the same store as a failing operation there; the
  fault schedule therefore also covers crash points.
* **Clock**: `Utc::now()` is an integer number of nanoseconds. Every reading of the clock in an endpoint of the issuer or the verifier is
  its own action of the model. In the sequential model all readings of one call agree and between calls the clock is arbitrary;
  in the model of overlapping calls the clock may also move between two readings of one call.
* **Randomness**: the n-th draw is `rng n` for an arbitrary function `rng`. Theorems that need freshness assume
  `rng` injective and that the store holds no key that will still be drawn; this is the cryptographic assumption on
  256-bit tokens. It is a hypothesis of the theorems that need it, never an axiom.
* **Providers** (`Metadata`, `Subject`, DID resolution, signatures, JSONPath, regex, SHA-256) are parameters:
  arbitrary functions, with assumed behaviour given as hypotheses where a theorem needs it.
* **Hash maps** are association lists; where iteration order matters the theorem quantifies over every order.
* **Panics** (`unimplemented!`, `todo!`, index out of range, overflow) are an explicit error value `Err.panic`.
* **Histories** are lists of operations folded over the world; history properties are proved by induction.
* **Schedules** (`Verif/Sched.lean`): endpoint programs are trees of atomic actions (one store access, one draw, one
  reading of the clock), so any number of calls can be interleaved action by action. A schedule says which call acts
  next, with which store fault, and when time passes; a call that is never scheduled again is one that crashed. A lone
  call behaves as in the sequential model (`solo`). C86 to C89 are about all schedules. Here the clock may move between
  two readings of one call.

* **The wallet** (`Verif/Holder`) is modelled like the issuer, with one more action: a call to another party. The answers come
  from an oracle that may depend on everything the wallet did before, so the other parties are adversarial. Its calls also
  have a schedule semantics (`Verif/Holder/Sched.lean`), in which every answer is chosen freely at the turn it is given; a
  lone call behaves as in the sequential model (`HPool.solo`). C110 to C113 are about all schedules.
* **Wallet and issuer together** (`Verif/Interop`): the oracle for calls to the issuer is the issuer model itself, replayed over
  the calls the wallet has made, as `vercre-holder/tests/provider.rs` connects the two. Between any two calls of the wallet the
  issuer serves arbitrary calls of others, chosen in advance. The two have separate clocks. JWTs that pass between them
  are texts; that one side can read what the other signed is a hypothesis (`Understands`), not part of the model.
* **Wallet and verifier together** (`Verif/Interop/Present*.lean`): likewise, with the verifier model as the oracle for the calls
  to the verifier. The URL of a request object is cut at its last slashes as in `vercre-holder/tests/provider.rs`. Hypotheses
  (`Agrees`, `Trusts`): each side reads what the other signs, the JSONPath `$.verifiableCredential[0]` leads to the first
  credential of a presentation, and both sides read a credential alike.
* **Messages as JSON and text** (`Verif/Wire/*.lean`): the readers and writers of messages, on JSON values and on text. The readers
  that `serde` derives are modelled from its documentation (`Verif/Wire/Serde.lean`): members in any order, unknown ones
  ignored, repeated ones refused, structs also from arrays, `flatten`, `untagged`, `tag`. Left out: enum variants given by
  number, and the nesting limit of `serde_json`. Maps are lists of pairs and written in that order. Times are written and read by `chrono`: that it reads back what it writes is a field of the structure `TimeText` (`Verif/Wire/Struct.lean`), over which the theorems quantify.

* **The example issuer** (`Verif/Server`): the web server of `examples/issuer`, handler by handler, over the issuer model. In
  `Server/Model.lean` a web request is served in one go; in `Server/Overlap.lean` requests overlap and are broken off, one action
  being one access to a map or to the store. Forms and redirects are values, and the texts of pages are not modelled. Its data store
  (`test-utils`, `DatasetStore`) is modelled with its mutex, and the two halves of its one read-and-write are separate steps.
* **Forms and queries** (`Verif/Wire/Form*.lean`, `QueryProps.lean`): the bodies and queries between the example wallet, issuer
  and verifier, byte by byte, with the `serde_urlencoded` crate modelled from its documentation. What bytes that are no UTF-8
  become is a parameter (`lossy`). Headers are left out, and which errors `axum` makes of an unreadable body. In `Verif/Server`,
  requests arrive as values; C148 says which values a query can carry.
* **The example wallet** (`Verif/App`): the application of `examples/wallet` around the wallet's endpoints: its commands, links,
  views and its store of credentials. Everybody it calls is arbitrary. A command is served in one go, as each holds the lock of the
  state. Its store (`tauri-plugin-store`) keeps values in memory and writes all of them to a file; each write works or fails as a
  whole, as told by a parameter, and the plugin may write at any time by itself. A crash falls back to the file as it was after any
  number of the command's writes. Colours and the texts of times and claims are left out.
* **Example verifier and what the example servers send back** (`Verif/Server/Verifier.lean`, `Redirect.lean`): the handlers and the
  store of /repo/examples/verifier, the statuses of both servers, and the redirects of the issuer down to their text. Not modelled:
  headers and the bodies of failures.
* **mDL documents as bytes** (`Verif/Mdl/Cbor.lean`, `Text.lean`): CBOR after RFC 8949 as `ciborium` writes it, and on top of it the forms
  of the types of `iso-mdl` and of COSE. Outside the repository and so parameters: how `Tag24` of `vercre-infosec` gives its bytes
  (both readings are modelled), the form of a device key, the text of times, SHA-256, and numbers that are no integers.
* **Client store** (`Verif/Issuer/Clients.lean`): the `ClientStore` of `test-utils`, which both the tests and the example issuer use, so that
  a registration changes what later requests see. Identifiers come from an indexed source, taken not to repeat.
* **What the example issuer comes with** (`Verif/Server/Stores.lean`): the clients and metadata of `test-utils` (client.json, issuer.json,
  server.json) under the keys its stores use, with the members the endpoints read.
* **The example wallet's screens** (`Verif/App/Shell*.lean`, examples/wallet/src): the screens in TypeScript as a state machine over the JSON views the application emits,
  in front of the model of the application (`App/Model.lean`). What is kept between renderings, what buttons, timers and effects invoke, `encodeURIComponent`,
  `trim`, `maxLength`, the rows of the details. Commands on their way are served one at a time in any order; messages come in order; a restart or crash starts a
  new shell. Left out: layout, colours, titles, transitions (instantaneous here), `React.StrictMode`'s double effects, the moment before the listener is registered,
  the separate boxes of the PIN and its description, and JavaScript's order of properties.
* **Replay of the code's own tests** (`Verif/Conform`): validation, not proof; no theorem uses it. The test data of the repository (`Data.lean`, generated member for member from
  the JSON files of `test-utils` and the `.snap` files) is read by the model's readers, each unit test and flow is run on the model, and what the model answers and
  stores is written by the model's writers and compared with what `insta` recorded from the real code. A slip in a transcribed function, name or default shows here.
  Known differences: `c_nonce_expires_in` is 600 in the model where the recording has 599 (the clock moves during the call), and the token state's
  `wallet_issuer` is not kept. Covered: all tests of the issuer, the verifier, the wallet (connected to both), the types, the macros, the query encoding and the matcher;
  not `iso-mdl`'s only test. The issuer's and verifier's tests are evaluated by the kernel (`decide +kernel`), the wallet's and the types' by the compiler's evaluator
  (`#guard`), which is enough for a test and adds nothing to the environment.

## 2. Properties that the code does not have

Where the code violates a property as stated, the model keeps the code's behaviour. We prove the negation on a concrete
witness (theorem name ends in `_fails` or says what goes wrong), and the strongest true part with the suffix
`_partial`. Section 5 lists the disagreements.

## 3. Trusted base

* Lean's kernel (4.33.0) and the axioms `propext`, `Classical.choice`, `Quot.sound` (each theorem uses a subset; no
  axiom is added, no `sorry`, `native_decide`, `bv_decide`, `implemented_by` or `unsafe`).
* The hand translation of the Rust code into the model. It was made by reading; nothing extracts it automatically.
* Rust semantics of the standard library items used (`HashMap`, `Option`, slices, `chrono` truncating `num_seconds`).
* Assumed provider behaviour as listed above. In schedules: one store access is atomic, and the other providers give
  fixed answers during one call.

The wire formats (the derived and hand-written serde readers and writers of requests, responses, metadata, states and
flows) are modelled over a JSON tree in `Verif/Wire`; the request macros (crates/macros) are functions from
the parsed tree and the values of Rust expressions to requests in `Verif/Wire/Macro.lean` and, independently, `Verif/Macros`, with nothing for a call that does not compile. Below the tree (`syn`)
the macros are not modelled, and of Rust's typing only what the text made by a macro meets.

The text of JSON is modelled as well (`Verif/Core/JsonParse.lean`), as are base64url, percent and form encoding, and CBOR.

Not modelled: `tracing`, HTTP below forms and queries, key generation, encryption (`vercre-infosec` algorithms), DID document
resolution, the bodies of the `test-utils` providers other than `DatasetStore`, `ClientStore`, `IssuerStore` and `ServerStore`, the web page of the example wallet and the other
example programs, the splitting of Rust source into tokens.

## 4. Per property: what is modelled and how it is proved

* **C01 Grant codes are single use.** Issuer history model (`Issuer/System`): operations folded over the world; invariant *code key absent* is preserved because only fresh keys are ever written. Induction over histories.
* **C02 A token is only issued for a matching, unexpired grant.** `token` modelled line by line; success is inverted guard by guard into an independent relational specification.
* **C03 A token never widens the authorization.** List induction over retained details; inclusion stated on identifiers and configuration ids only.
* **C04 A pre-authorized holder can narrow but not extend.** List induction over retained details; inclusion stated on identifiers and configuration ids only.
* **C05 Expired grants are refused at an exact boundary.** `isExpired` with truncating division on nanoseconds; equivalence with a plain inequality.
* **C06 The advertised token lifetime is honoured.** Composition token then credential; witness for the failure and a theorem giving the exact deadline.
* **C07 Only registered, in-scope clients get tokens.** `token` modelled line by line; success is inverted guard by guard into an independent relational specification.
* **C08 Anonymous pre-authorized access follows the server setting.** `token` modelled line by line; success is inverted guard by guard into an independent relational specification.
* **C09 An authorization code is only issued for a valid request.** `authorize` modelled with both request forms; success inversion; composition with `token` for C10.
* **C10 The authorization code carries exactly the request's binding.** `authorize` modelled with both request forms; success inversion; composition with `token` for C10.
* **C11 Authorized credentials are exactly those the subject may have.** `authorize` modelled with both request forms; success inversion; composition with `token` for C10.
* **C12 Pushed authorization can be required without locking clients out.** History model with PAR; C12 lock-out by invariant (no pushed request is ever stored), C14 by a general replay theorem.
* **C13 Pushed requests expire.** `authorize` modelled with both request forms; success inversion; composition with `token` for C10.
* **C14 A pushed request URI is used at most once.** History model with PAR; C12 lock-out by invariant (no pushed request is ever stored), C14 by a general replay theorem.
* **C15 issuer_state binds an authorization to the offered subject.** `authorize` modelled with both request forms; success inversion; composition with `token` for C10.
* **C16 issuer_state only accepts credential offers.** `authorize` modelled with both request forms; success inversion; composition with `token` for C10.
* **C17 Offers only contain supported credentials and permitted grants.** `create_offer`, `credential_offer` modelled; composition theorems with `token`.
* **C18 A created offer can be redeemed.** `create_offer`, `credential_offer` modelled; composition theorems with `token`.
* **C19 A by-reference offer is delivered unchanged and once.** `create_offer`, `credential_offer` modelled; composition theorems with `token`.
* **C20 Fetching an offer does not disturb other sessions.** `create_offer`, `credential_offer` modelled; composition theorems with `token`.
* **C21 Only one transaction-code guess per pre-authorized code.** Issuer history model (`Issuer/System`): operations folded over the world; invariant *code key absent* is preserved because only fresh keys are ever written. Induction over histories.
* **C22 Credentials require a live access token and nonce.** `credential` modelled with proof decoding as a parameter; guards inverted, then composition for replay and recovery.
* **C23 Proof of possession is bound to the issuer nonce.** `credential` modelled with proof decoding as a parameter; guards inverted, then composition for replay and recovery.
* **C24 Nonces rotate on every issuance and every rejected proof.** `credential` modelled with proof decoding as a parameter; guards inverted, then composition for replay and recovery.
* **C25 A proof cannot be replayed.** `credential` modelled with proof decoding as a parameter; guards inverted, then composition for replay and recovery.
* **C26 Issued claims come from the authorized dataset.** `credential` modelled with proof decoding as a parameter; guards inverted, then composition for replay and recovery.
* **C27 Only credentials authorized by the token are issued.** `credential` modelled with proof decoding as a parameter; guards inverted, then composition for replay and recovery.
* **C28 Subject consistency across a whole flow.** Invariants over the whole issuer system by induction on histories; frame lemma for each endpoint.
* **C29 An invalid_proof error can be recovered from.** `credential` modelled with proof decoding as a parameter; guards inverted, then composition for replay and recovery.
* **C30 Endpoints only touch their own session.** Invariants over the whole issuer system by induction on histories; frame lemma for each endpoint.
* **C31 Deferred issuance is single use and under the caller's authority.** `deferred`, `notification`, `register` modelled; single use by invariant, failures by theorem over all reachable states.
* **C32 A still-pending deferred credential can be polled again.** `deferred`, `notification`, `register` modelled; single use by invariant, failures by theorem over all reachable states.
* **C33 Notifications are accepted for issued credentials.** `deferred`, `notification`, `register` modelled; single use by invariant, failures by theorem over all reachable states.
* **C34 Registration requires a known access token.** `deferred`, `notification`, `register` modelled; single use by invariant, failures by theorem over all reachable states.
* **C35 Mandatory claims are enforced at every depth.** Nested claim trees as an inductive type; acceptance proved equivalent to an inductively defined *covers* relation on paths.
* **C36 Unsupported claims are refused.** Nested claim trees as an inductive type; acceptance proved equivalent to an inductively defined *covers* relation on paths.
* **C37 Format lookup returns a matching configuration.** Lookup over every permutation of the configuration map.
* **C38 OAuth errors serialize to their code and description.** Rendering as characters and a JSON string reader for the fixed shape; round trip by induction on the description.
* **C39 One-or-many collections behave as lists.** Functional models of `Quota`, base64url and the generators; length and injectivity by induction.
* **C40 Generated tokens have full length and a URL-safe alphabet.** Functional models of `Quota`, base64url and the generators; length and injectivity by induction.
* **C41 PKCE pairs always satisfy the server's length check.** Functional models of `Quota`, base64url and the generators; length and injectivity by induction.
* **C42 Percent-encoding round-trips.** Byte-level percent coding with decode∘encode = id; flat serializer and replacement-based parser, with separator-free values.
* **C43 URL-encoded requests round-trip.** Byte-level percent coding with decode∘encode = id; flat serializer and replacement-based parser, with separator-free values.
* **C44 Revocation status bits are placed correctly.** Bitstring as a list of bits folded over the log; specification by last matching entry.
* **C45 Message status entries do not overlap.** Bitstring as a list of bits folded over the log; specification by last matching entry.
* **C46 Bitstring generation never panics.** Bitstring as a list of bits folded over the log; specification by last matching entry.
* **C47 A status list credential can be produced.** Bitstring as a list of bits folded over the log; specification by last matching entry.
* **C48 Presentation constraints hold for every required field.** Matcher over a JSON inductive type with JSONPath and regex as parameters.
* **C49 Constant filters compare values.** Matcher over a JSON inductive type with JSONPath and regex as parameters.
* **C50 Optional fields still have to satisfy their filter when present.** Matcher over a JSON inductive type with JSONPath and regex as parameters.
* **C51 Authorization requests are fresh and retrievable.** Verifier endpoints as state transformers; success inversion and history induction.
* **C52 An accepted presentation answers the request.** Verifier endpoints as state transformers; success inversion and history induction.
* **C53 A presentation request is answered at most once.** Verifier endpoints as state transformers; success inversion and history induction.
* **C54 Expired presentation requests are refused.** Verifier endpoints as state transformers; success inversion and history induction.
* **C55 Presentations are cryptographically verified.** Verifier endpoints as state transformers; success inversion and history induction.
* **C56 Built credentials carry the mandatory properties.** Builder call sequences as folds; signatures as an abstract pair of functions with the correctness law.
* **C57 Language strings keep every value.** Builder call sequences as folds; signatures as an abstract pair of functions with the correctness law.
* **C58 Signed credentials verify to themselves.** Builder call sequences as folds; signatures as an abstract pair of functions with the correctness law.
* **C59 mDL digest identifiers are unique per namespace.** Generator as a function of an arbitrary stream of 32-bit integers; loop with an existence hypothesis for termination.
* **C60 mDL digest identifiers are in range.** Generator as a function of an arbitrary stream of 32-bit integers; loop with an existence hypothesis for termination.
* **C61 Every mDL element is digested once.** Generator as a function of an arbitrary stream of 32-bit integers; loop with an existence hypothesis for termination.
* **C62 Holder issuance follows the flow order.** Holder flow model with an arbitrary issuer and a trace of external calls; trace invariants by induction.
* **C63 A failed holder step leaves the flow unchanged.** Holder flow model with an arbitrary issuer and a trace of external calls; trace invariants by induction.
* **C64 Accepted scope limits what is requested.** Holder flow model with an arbitrary issuer and a trace of external calls; trace invariants by induction.
* **C65 Accept only accepts what was offered.** Holder flow model with an arbitrary issuer and a trace of external calls; trace invariants by induction.
* **C66 Several credentials can be collected in one call.** Holder flow model with an arbitrary issuer and a trace of external calls; trace invariants by induction.
* **C67 The issuer is notified of the outcome.** Holder flow model with an arbitrary issuer and a trace of external calls; trace invariants by induction.
* **C68 Saving stores exactly the received credentials.** Holder flow model with an arbitrary issuer and a trace of external calls; trace invariants by induction.
* **C69 Deferred bookkeeping.** Holder flow model with an arbitrary issuer and a trace of external calls; trace invariants by induction.
* **C70 Nothing is presented without authorization.** Presentation flow model with a trace of external calls; strings as character lists for status text.
* **C71 Presentation status text round-trips.** Presentation flow model with a trace of external calls; strings as character lists for status text.
* **C72 A presentation can be built for any request.** Presentation flow model with a trace of external calls; strings as character lists for status text.
* **C73 Submissions map every input descriptor.** Presentation flow model with a trace of external calls; strings as character lists for status text.
* **C74 Verifiers can read published status lists.** Bytes of the published text read bit by bit as the standard says; theorem for all logs.
* **C75 An mDL is bound to the holder's key.** Output of the mDL model inverted: device key and signed bytes; the RFC 9052 structure is defined separately and is longer than the payload.
* **C76 The mDL issuer signature is a COSE signature.** Output of the mDL model inverted: device key and signed bytes; the RFC 9052 structure is defined separately and is longer than the payload.
* **C77 Ended flows stay ended.** Trace theorems over the holder model: an ended flow is absent from the store and only fresh keys are written; verifiers are draws of the random stream.
* **C78 Authorization codes are redeemed with their own verifier.** Trace theorems over the holder model: an ended flow is absent from the store and only fresh keys are written; verifiers are draws of the random stream.
* **C79 The state of an authorization response is checked.** Trace theorem about what the code does do, and a concrete history in which it differs from the claim.
* **C80 A flow talks to the issuer that made the offer.** Trace theorem about what the code does do, and a concrete history in which it differs from the claim.
* **C81 The wallet never panics on issuer input.** A predicate on programs, closed under sequencing, saying that good input gives no panic; every endpoint has it. Witness for empty lists.
* **C82 Saved credentials were made by the issuer of the offer.** Trace theorem about what the code does do, and a concrete history in which it differs from the claim.
* **C83 Proofs of possession are made out to the issuer.** Trace theorem about what the code does do, and a concrete history in which it differs from the claim.
* **C84 Presentation requests are signed.** Inversion of `request` for fetched requests; a forward theorem for inline requests.
* **C85 Proofs use the latest nonce.** Trace theorem about what the code does do, and a concrete history in which it differs from the claim.
* **C86 Single-use values are single-use when calls overlap.** Programs as trees of atomic actions, interleaved by an arbitrary schedule. Invariant: keys are owned by the call that draws them and written once; predicates on programs say that success requires reading and removing (or renewing) the value. Witness schedules for calls that overlap.
* **C87 Overlapping calls never mix subjects.** Rely/guarantee triples of the endpoints, lifted to every schedule.
* **C88 A proof of possession is used once when calls overlap.** Programs as trees of atomic actions, interleaved by an arbitrary schedule. Invariant: keys are owned by the call that draws them and written once; predicates on programs say that success requires reading and removing (or renewing) the value. Witness schedules for calls that overlap.
* **C89 A presentation request is answered once when calls overlap.** Programs as trees of atomic actions, interleaved by an arbitrary schedule. Invariant: keys are owned by the call that draws them and written once; predicates on programs say that success requires reading and removing (or renewing) the value. Witness schedules for calls that overlap.
* **C90 Received credentials are kept until saved.** Invariant by induction over histories: once something was received the flow is stored, unless it was ended; then a forward run of `save`.
* **C91 Valid authorization requests get a code.** The verification functions are inverted into equivalences; a specification of acceptable requests (`Acceptable`, in terms of the metadata, the Subject provider and the store) is shown to imply success of `authorize` and of a push followed, after any history, by `authorize`. `create_offer` is characterised by an equivalence. Module Issuer/AcceptProps.lean.
* **C92 Offers are created exactly for valid requests.** The verification functions are inverted into equivalences; a specification of acceptable requests (`Acceptable`, in terms of the metadata, the Subject provider and the store) is shown to imply success of `authorize` and of a push followed, after any history, by `authorize`. `create_offer` is characterised by an equivalence. Module Issuer/AcceptProps.lean.
* **C93 Valid credential requests are served.** The exact success condition of `credential` gives C93; C95 – C97 compose it with the stored state of an offer, authorization or deferral, which no history alters (frozen entries), and the session the token endpoint stores. Modules Issuer/IssueProps.lean, Issuer/EndToEnd.lean.
* **C94 Pushed requests can be used.** The verification functions are inverted into equivalences; a specification of acceptable requests (`Acceptable`, in terms of the metadata, the Subject provider and the store) is shown to imply success of `authorize` and of a push followed, after any history, by `authorize`. `create_offer` is characterised by an equivalence. Module Issuer/AcceptProps.lean.
* **C95 An offer leads to its credentials.** The exact success condition of `credential` gives C93; C95 – C97 compose it with the stored state of an offer, authorization or deferral, which no history alters (frozen entries), and the session the token endpoint stores. Modules Issuer/IssueProps.lean, Issuer/EndToEnd.lean.
* **C96 An authorization leads to its credentials.** The exact success condition of `credential` gives C93; C95 – C97 compose it with the stored state of an offer, authorization or deferral, which no history alters (frozen entries), and the session the token endpoint stores. Modules Issuer/IssueProps.lean, Issuer/EndToEnd.lean.
* **C97 Deferred credentials can be collected.** The exact success condition of `credential` gives C93; C95 – C97 compose it with the stored state of an offer, authorization or deferral, which no history alters (frozen entries), and the session the token endpoint stores. Modules Issuer/IssueProps.lean, Issuer/EndToEnd.lean.
* **C98 Issuer calls never panic.** Panics are explicit error values of the model. A judgement `CalmProg` (no leaf of the program tree panics) is proved for every endpoint under `GoodIssuer` (all configured formats are the one the code implements; a published list of authorization servers is not empty), so it holds for sequential runs and for every schedule. Two general theorems show that without either condition a valid request panics.
* **C99 Expired sessions stay expired.** `Prog.TGuar` is the write judgement with an assumption on clock readings; with it `Lapsed` (no record of the session is usable) is shown to be preserved by every call, `Own` (what is stored under an access token is its own session) likewise, and a bound on nonce lifetimes is an invariant of reachable states. C100 is refuted in general: a token unused for 601 s is lost for good; the part that holds is that live sessions get a new nonce whenever the proof is missing or bad.
* **C100 An expired nonce can be replaced.** `Prog.TGuar` is the write judgement with an assumption on clock readings; with it `Lapsed` (no record of the session is usable) is shown to be preserved by every call, `Own` (what is stored under an access token is its own session) likewise, and a bound on nonce lifetimes is an invariant of reachable states. C100 is refuted in general: a token unused for 601 s is lost for good; the part that holds is that live sessions get a new nonce whenever the proof is missing or bad.
* **C101 The wallet and the issuer of this repository work together.** Connect the two models: the wallet's oracle for issuer calls is the issuer model, replayed over the calls the wallet has made, with arbitrary calls of others in between (Interop/Model.lean). Forward lemmas for each wallet endpoint (Forward.lean), an invariant linking the wallet's flow to the issuer's session (Link.lean), induction over the wanted credentials (Props.lean).
* **C102 A whole offer is collected in one call.** Derive the single-use assumption of C66 from the issuer model: the session of a token keeps its key (an invariant of all histories), an issued credential replaces the nonce, and C24 refuses the old proof ever after. Then C66 applies.
* **C103 A valid token request is granted, and only a valid one.** Invariant over histories: the items of stored offers are named by configuration id. Then both directions by cases on the grant type, using the exact run characterisation of the token endpoint.
* **C104 An offered credential can be named by its format in a token request.** Negation from the same invariant: the request by format matches no item of any stored offer, so it is refused in every reachable state.
* **C105 A wallet-initiated flow runs to its end.** Interop: the wallet model's `authorize` runs against the issuer model as its oracle. `authorize_links` shows the wallet's authorize step succeeds and leaves wallet and issuer in agreement about token and nonce (`Linked`); the rest is the induction of C101. Other traffic is arbitrary subject to `Undisturbed`.
* **C106 An offer can be answered by way of the authorization endpoint.** Interop: the wallet model's `authorize` runs against the issuer model as its oracle. `authorize_links` shows the wallet's authorize step succeeds and leaves wallet and issuer in agreement about token and nonce (`Linked`); the rest is the induction of C101. Other traffic is arbitrary subject to `Undisturbed`.
* **C107 Deferred credentials survive other issuance.** False of the code: refuted in general. The stored request carries a proof for the nonce of the session at the time; every issued credential and every `invalid_proof` answer renews that nonce; the deferred endpoint verifies the stored request again. `Retired` (C24) shows that the old nonce never comes back. The true part (nothing changed in the session since) is C97.
* **C108 A credential that is not ready reaches the wallet later.** Interop model: the wallet's calls are answered by the issuer model (`Net`). `Linked` (C101) is carried up to the deferring call; `Waiting` relates the wallet's outstanding transaction to the issuer's stored request; `Waiting.collect` shows that the deferred endpoint serves it and the wallet takes it in; the final save stores the list.
* **C109 A flow goes on after the issuer has sent a new nonce.** False. Interop model; `Stale` (the wallet's flow holds a token with a nonce the issuer has retired) is shown to follow from each of the four cases and to be kept by every call of anybody (`Retired`, C24/C107, on the issuer's side; `step_moves`, the exact effect of each call on the flow's nonce, on the wallet's); in such a state all proofs are refused. The case that works (successful call, by identifier) is the true part of C85 together with C101.
* **C110 Consent comes first, however wallet calls overlap.** Schedules of wallet programs (`Verif/Holder/Sched.lean`), one effect at a time, answers given turn by turn. A rely-guarantee logic (`Keeps`): each endpoint, whatever happens between its effects, writes only values that satisfy facts about the trace so far (`FlowFacts`, `PresentationFacts`), makes only calls that are due (`Due`), and touches only its own flow. The facts are monotone in the trace, so they hold of all that is stored in every schedule.
* **C111 Flows of a wallet do not interfere.** Same logic (the `G` of the pact); independence by a simulation between the full schedule and the one without the other calls.
* **C112 An ended flow stays ended, also when calls overlap.** False if a call was under way (witness schedule). True if none was: invariant over all continuations.
* **C113 Overlapping calls about one flow take effect one after the other.** False: witness schedules of the wallet model. What does hold of overlapping calls is C110 and C111; calls about one flow that do not overlap each other are simulated by the sequential model (induction over the schedule, building the sequential surroundings from its end).
* **C114 What a wallet presents to a vercre verifier is accepted.** The wallet model with the verifier model as its oracle (`Verif/Interop/Present.lean`), replayed over all calls of the wallet and of others. The stored request and the stored flow are carried through everything in between by the per-step invariants of both models; the response check is the one of C52, turned round. Assumed of the libraries: what one side signs the other reads (`Agrees.signed`, `.presented`), the path `$.verifiableCredential[0]` leads to the first credential (`Agrees.reads`), and the verifier reads the wallet's credentials as the wallet does (`Trusts`).
* **C115 A wallet that holds all that is asked for can answer.** False: general theorem that such a request is refused in every history, and a witness; the case of a single input descriptor is C114.
* **C116 Claim descriptions survive the wire.** The derived readers and writers of `serde` as functions on JSON (`Verif/Wire/Serde.lean`), the hand-written one clause by clause (`Verif/Wire/Claim.lean`). Mutual induction over the nested structure: everything read can be put in words, everything that can be put in words is read back. Where it fails: general theorems.
* **C117 Authorization details survive the wire, and are honoured or refused.** Readers and writers as in C116 (`Verif/Wire/Detail.lean`), including `flatten`, `untagged` and `tag`. Round trip by cases over the types; where it fails: general theorems.
* **C118 Authorization requests survive as text.** Writer and reader of the request (`Verif/Wire/Request.lean`) on top of the query strings of C42 and C43 and the details of C117. Round trip for plain texts; where it fails: general theorems.
* **C119 Credentials and presentations survive the wire.** All members of credentials and presentations with the derived readers and writers (`Verif/Wire/Struct.lean`, `Verif/Wire/Credential.lean`). A lemma on structs with distinct member names gives the round trip of each part; what is read satisfies the condition under which things come back. Where it fails: general theorems.
* **C120 Issued credentials can be read.** The credential the issuer's model builds is put into the wire model (`Verif/Wire/Issued.lean`); what the endpoint answers is shown to satisfy the condition of C119, narrowing included. Where it fails: a general theorem on claims called `id`.
* **C121 The issuer works the same over a store that keeps text.** The derived readers and writers of the issuer's state are modelled (`Verif/Wire/Store.lean`) and shown inverse on states that can be put in words; every endpoint keeps the store within those (`call_keeps`), so a program over text refines the program over states (`Verif/TextStore.lean`), per history and per schedule.
* **C122 The verifier works the same over a store that keeps text.** The derived readers and writers of the verifier's state down to filters and client metadata are modelled (`Verif/Wire/Asked.lean`) and shown inverse on what Rust's types allow; every endpoint keeps the store within that, so the program over text refines the program over states, per history and per schedule, as for C121.
* **C123 A presentation request given as a query string reaches the wallet as it was made.** The query string is the composition of the request's derived serializer with the model of `urlencode::to_string`; the wallet's reader the composition of `urlencode::from_str` with the derived reader. Plain requests come back by the two round trips; `create_request` is shown to build plain requests from plain parts. Bracketed JSONPaths, `&` and quotation marks in texts, and a complete URL are shown not to come back, the last for every address and request.
* **C124 Messages between a wallet and a verifier mean the same on both sides.** Each message is a small derived reader and writer over JSON; the answer with the request object has a hand-written visitor, modelled as the loop it is. Round trips go through the text printer and parser; for the wallet's answer the round trip is characterised exactly by the presentations that come back. That no unsigned request object can be read is proved for every object.
* **C125 Messages between a wallet and an issuer mean the same on both sides.** Each message is a derived reader and writer over JSON, with flattened parts read from the remaining members. Round trips go through the text printer and parser. Where a part of the message does not always come back (details, lifetimes, plain credentials) the messages that do are characterised exactly. Malformed client assertions and proofs are proved to be dropped for every malformed value.
* **C126 What an issuer publishes is read as it was published.** Readers and writers of the metadata structs over JSON, flattening the OAuth parts; exact characterisation of the issuer metadata that comes back; the clash of the endpoint member that both client structs have is proved as a general statement.
* **C127 A wallet and an issuer that talk over JSON text do what they do in one process.** The connection of C101 with every request and response passing the JSON writer, the text printer, the parser and the reader. Invariants: everything the issuer stores can be put in words (from C121); so can all its answers (the clock stands still during one call, so lifetimes are constants); so can everything the wallet stores and asks (a predicate on wallet programs, proved for each endpoint). Then the two oracles agree on every call that can come up, and the executions are equal by induction on the program and on the history.
* **C128 Messages written by other implementations of the protocols are understood.** For each message one theorem over all lists of members that have the standard's members once each (a filter by name gives exactly one), and anything else beside: the derived reader gives the value. Where the library departs from the standard, the message is proved to be refused, whatever else it says.
* **C129 A wallet and a verifier that talk over JSON text do what they do in one process.** The connection of C114 again, with the verifier's programs over a store of text (C122) and each message written and read by the library's writers and readers (C124). Induction over the wallet's calls: the two verifiers' worlds mirror each other, and all the wallet presents is signed, so that its answers survive the wire. C114 follows over text.
* **C130 A wallet whose store keeps JSON text works as one that keeps the flows themselves.** Derived readers and writers of `Issuance`, `Presentation`, `Credential` over those of the parts (C116 - C126); the exact condition for a flow to come back as text; a member required of each kind and never written by the other. The wallet's programs run over a store of text, and an invariant over each program shows that whatever is stored can be put in words; induction over the history then gives the same world, written. Selective disclosure is the exception: a narrowed detail is read back as one for a driving licence.
* **C131 The request macros build the request that their JSON-like text stands for.** Each macro is a function from the parsed text to the request built, `none` if the program does not compile. A separate function says which JSON a text stands for; the readers of requests are those of C117 - C128. For plain text (nothing given twice, nothing said that the macros have no place for) whatever the macro builds is what the reader makes of the JSON; bare claims by induction on their depth. Further theorems show that the ordinary requests are taken in any order of members, and where text is refused or changed. A second translation of the macros, made independently and with Rust expressions of more types, is shown equivalent to a specification member by member, and equal to the first where both apply.
* **C132 A key proof works at the issuer it was made for only.** Key proofs carry iss, aud and iat. Any rewriting of those three leaves the outcome of every step, and by induction of every history, as it is: the property is false in general, with a run as witness.
* **C133 Every credential has an id of its own.** The id of every credential that any step gives is computed; two credentials of one issuer and type have the same. The wallet's storage is modelled by its contract (saving replaces what has the same id) and by induction keeps the last credential of a type only.
* **C134 The status of one credential can be changed without touching another.** The Status service is a function of the subject and of the credential identifier it is asked for. No step depends on what it says of any identifier but one fixed text; hence two credentials of one subject have one status.
* **C135 Every scope value asked for is honoured or refused.** Two authorization requests that differ in their scopes, but not in the first value, are the same program; hence one step of one does what the other does in every state. What holds: an authorization covers every configuration that has the first value.
* **C136 What one credential issuer of a service authorized is honoured by that issuer only.** Stored states name no issuer. The token endpoint is shown to be the same program for every issuer with the same server settings; the completeness theorem C93 for the credential endpoint gives the credential at the other issuer, whose name and key are then computed.
* **C137 An access token stops working when its advertised lifetime is over.** By induction on the number of renewals: a request without the proof it needs is refused, but renews session and nonce, so that requests nine minutes apart keep the token alive for any time; C93 then gives a credential. What holds (C99, C100): once left alone for its time a token never works again.
* **C138 The example issuer gives codes only to people who have logged in.** The example server's handlers are modelled over the issuer of C01-C137. By induction on the visits, every key of its login map is the token of a shown form or the name of a user who logged in; a code is only given to a subject in the map. What fails: the map is shared by all browsers and never emptied (induction), and the tokens of forms are keys of the same map, so C91 gives codes for them.
* **C139 The example issuer returns the state of an authorization request.** The program of two requests that differ in their state is the same but for the state of the response, which the handler drops.
* **C140 The example issuer redirects only to registered URIs.** C09 says when a request is accepted; every other one ends in an error, never a panic (C98), and the handler sends it to the URI of the request.
* **C141 A pushed authorization request can be completed at the example issuer.** Invariant over all visits: the keys of the map of pushed requests are tokens of forms, and none is in the login map, where the login looks. Codes for pushed requests cannot come because the handler panics on request URIs; with pushed requests required, C12 refuses the others.
* **C142 The example issuer acts in the name of the host it is reached at.** The authorization handler is the same function for all hosts; the other handlers for all requests that differ only in issuer and token.
* **C143 The example issuer's data store serves every question on its own.** The store with its mutex: a panic while the lock is held poisons it. By induction on the questions.
* **C144 A pending data set is available from the second asking on.** The question for a data set in its two halves, each atomic; the undisturbed case by induction on the questions, the overlapping case for every pair of entries.
* **C145 A login form at the example issuer can be sent in once and leads back to its own request.** Invariant over all visits: a used token is in no map and is not drawn again. That each key of the login map is the user's name or the token of a form shown for an authorization request, by induction; so is that a token keeps its request.
* **C146 The example issuer reads the token request the example wallet sent.** Forms are written and read byte by byte as the `serde_urlencoded` crate documents; reading gives back what was written by induction on the members. A list has no text, so no form is written; and what is read from a text is never a list. The wallet's part follows from its programs' effects (`Holder/Summary`), whoever takes the forms.
* **C147 The example verifier reads the presentation the example wallet sent.** As C146. With C52, a verifier that reads no presentations accepts nothing.
* **C148 The redirect after a login leads on with the request that was made.** The query is the text of C118's encoder; reading it back by induction on the parameters, if no text has an ampersand. The encoder leaves ampersands as they are, which gives the failing case for every request. That details are lost: the encoder only ever appends, so the parameter's name is in the query whatever the details are, and no text is read as a list.
* **C149 The example wallet lists the credentials it has.** The application is a state machine over the wallet's endpoints (`App/Model`), whose calls to the store it answers. Invariant over all histories (`App/ListLemmas`): each credential is stored under its id, and while the list is up, what is stored is a sublist of it, and all of it if no write fails.
* **C150 The example wallet's user decides about what they see.** The screen is the last view since the start; by induction over the history it is the view of the state whenever the state can be shown. Another invariant ties the application's flows to entries of the wallet's log. A history with an offer that cannot be shown gives the failing case.
* **C151 Credentials in the example wallet outlive it, deleted ones do not come back.** What holds of an id in memory, in the file and in every earlier file content since the command began is kept by each command and by falling back to an earlier content (`App/KeepLemmas`). For collecting: the effects of `save` with each write answered by the disk.
* **C152 The example wallet can always show its list.** The view of the list is all or nothing over the credentials; with C151 one that cannot be shown stays.
* **C153 Offers and requests made by the library reach the example wallet as links.** The encoder only ever appends, so a query begins with the name of its first field; text that begins with a letter `c` is not JSON. Percent-encoded JSON by the round trips of C42 and C121.
* **C154 The details of a credential show all of its claims.** Folding claims into a map keeps the last one of each name, by induction.
* **C155 Nothing is pending behind the example wallet's list.** Invariant over all histories: while no flow is shown, the application's flow ids are empty; no flow is stored under an empty id, as these are drawn at random.
* **C156 The example wallet does not run into what it does not implement.** Which calls each endpoint can make, from its effects (`App/Calls`); the log has no others, by induction over the history.
* **C157 The example wallet's user sees to whom they present what.** The view is computed from the credentials found and the status, which is always the same after a request.
* **C158 An issued mDL reads back as what it was made from.** CBOR is modelled down to its bytes with a writer and a reader (`Mdl/Cbor`); reading what was written gives it back, by induction over the value and its size. The forms of the types on top of it (`Mdl/Text`), and an invariant of the loops: no name space and no id twice, so that order does not matter.
* **C159 Readers made to the standard can read an issued mDL.** A reader after ISO/IEC 18013-5 is specified separately; it finds none of the members it looks for.
* **C160 The digests in an mDL are over the items as a reader has them.** What `Tag24::to_vec` of the external crate gives decides it; both cases are proved.
* **C161 Each element of an mDL has a salt of its own.** The salts are numbered by draw; by induction over the loops the items use the draws in order.
* **C162 A wallet can take in every credential the issuer issues.** base64url has no dot and JWTs have: with the effects of the endpoints (C68, C90) no call that is answered with an mDL succeeds.
* **C163 The example wallet gives out only credentials that were asked for.** An invariant of the log over all commands: whenever credentials were found they were in the store and satisfy the constraints (as specified for C48), and whatever is presented had been found before.
* **C164 A request that limits disclosure is respected.** The same invariant; and finding does not depend on `limit_disclosure`. A concrete history with two credentials.
* **C165 The example verifier asks in the name of the host it is reached at.** The handlers of the example verifier over the verifier model (`Server/Verifier.lean`); what a call writes, and an invariant over all histories: whatever is kept was made by an earlier request, at the host it names.
* **C166 A presentation request made at the example verifier can be fetched until it is answered or has expired, and not after.** From the same model: nothing that a visit can do changes or removes what is kept under a name once drawn (answers are never accepted, C147), by induction over the visits.
* **C167 The status of an answer of the example servers tells callers' faults from the servers'.** The status as a function of the reply (`Server/Redirect.lean`), for all errors.
* **C168 What the example issuer's authorization endpoint decided reaches the client.** The `Location` of a redirect as text, and the client's reading of its query as a form. The query of an error goes through the error's own text as JSON (C38) and the form encoding.
* **C169 An offer that the user of the example wallet accepts ends up as credentials in the wallet.** The application (`App/Model.lean`) with the issuer model as what surrounds it: its endpoints run as in the wallet connected to the issuer (C101), command by command; then the saved credential is found in the files. That two or more never arrive is C102's argument, over any history of the application.
* **C170 A request for a credential that the user of the example wallet has can be answered.** The application (`App/Model.lean`) with the verifier model as what surrounds it: its endpoints run as in the wallet connected to the verifier (C114), command by command, and what the wallet finds is computed from the application's store. From the exact condition for acceptance follow the part that holds and what is in the way.
* **C171 Only the bearer of a live access token can register a client.** A relation says which values a response hands out (codes, addresses of pushed requests, tokens, transaction and notification identifiers). For every one, after any history and any wait, a registration carrying it succeeds. What holds: values that the issuer did not make up are refused (key invariant of the store), and so are redeemed codes for ever (single use, C01).
* **C172 A client that registers can use what it registered, and nobody's registration touches another's.** The client store of the examples is added to the issuer model (`Issuer/Clients.lean`), so that registrations change what later requests see. Induction over histories: identifiers still to be given out are unused, hence registrations never overwrite. Where known clients come from gives the safety of codes; C91 gives service. Clients that leave out what RFC 7591 lets them leave out are refused later: proved for all of them.
* **C173 The user of the example wallet can collect what the example issuer offers.** The stores that the example issuer is built with become data of the model (`Server/Stores.lean`). A program logic for the wallet's endpoints (`Holder/Asks.lean`) shows, for all histories of the application, who its requests say they come from and where they go. With C07 every token request is refused, so that nothing is ever saved. With the two constants repaired, C169 applies.
* **C174 Logins and codes at the example issuer survive overlapping and broken-off requests.** Every request has a desk that says how far its handler is; one action is one access to a map, one store access of the endpoint or one tick of the clock (`Server/Overlap.lean`). Invariants over all schedules; the endpoints' part is a schedule of library calls, to which C86 to C89 apply; a request that runs alone agrees with `Server/Model.lean`.
* **C175 People who use the issuer at the same time do not affect each other.** A logic for where a program looks (`Apart.lean`): it uses only entries on its side, if what is stored there leads only to entries on that side. Two runs, one with and one without the others, stay alike on the side of the set, by induction over the schedule. Each endpoint is shown to stay with what it presents and draws.
* **C176 Requests for presentation do not affect each other.** As C175, with the logic of `Apart.lean`.
* **C177 A response is judged as of the time it is checked, however long that takes.** `Response.verify` reads the clock once per input descriptor. A logic of programs whose clock readings lie between two times (`Verifier/ClockProps.lean`), with an induction over schedules; being fulfilled is antitone in time.
* **C178 What has expired when a request comes in gets nothing, however requests overlap.** The programs of the endpoints under every schedule, with a clock that moves between any two effects. Keys that are not access tokens are written once, so an expired record stays as it is until removed; `TGuar` and `Timed` carry the lower bound on clock readings. A concrete schedule shows how an expired session comes back.
* **C179 Codes and request URIs are given exactly when the rules say so.** Equivalences for the programs `authorize` and `par`: each step of verification is turned into an equivalence with a specification of what a description of a credential is taken for, which claims it lists, and what a scope asks for.
* **C180 A code stands for credentials the issuer publishes.** From C179: the lookup of the configuration happens for details by format and for listed claims only. The negation is proved of every valid request that names an unpublished configuration. The credential endpoint looks the configuration up itself, before any change to the store.
* **C181 Credentials are given exactly when the rules say so.** Equivalences for the programs `credential` and `deferred`, from the exact description of their successful runs: the choice of the authorization, the checks of the proofs and the making of the credential are each shown equivalent to their specification.
* **C182 An offer the user accepts on the screens is collected.** The TypeScript shell is a state machine over the JSON views the application emits, in front of the model of the application; commands in transit are served in any order. Invariant: the shell never reaches the mode in which it would ask for the PIN or the credentials. The log of everything the wallet has asked of others then has no token or credential request, and the store never grows.
* **C183 Nothing is presented but what the user authorized on the screen.** Counting argument by induction over everything that happens: flows that were authorized never exceed the presses of the button on the screen that asks. For the calm case, the view on the screen is the one of the application's state. The negation is a run in which a second link is served between drawing and pressing.
* **C184 Nothing is deleted but what the user confirmed.** Invariants over all histories: what is stored comes from the file, the details on their way or on the screen are those of a credential of the file, and a delete command on its way names the id of a dialog in which Delete was pressed.
* **C185 An opened offer or request stays on the screen until the user decides.** The timer is an event that may happen at any time after the start. The negation is a run that opens a link before it goes off; the true part is an induction over everything that is not the user's, a link or an end of the wallet.
* **C186 The user can always get back to the list.** Invariant about which handlers the header holds on which screen; then by cases on the screen. The negation is by induction over the clicks.
* **C187 What the user pastes gets to the wallet as it was.** Round trip of `encodeURIComponent` and the percent decoder of C153 over all texts; trimming of a JSON text; reading an offer back. An encoded text has no `&`, so a request by value is never recognised. Cut-off offers fail to parse by an argument about the JSON reader.
* **C188 The details of a credential on the screen tell what it says.** Model of the rows and of the regular expression for the domain. Renaming claims commutes with collecting them, so the rows do not change.
* **C189 A front end and the verifier understand each other.** The derived readers and writers of the request and the answer; round trips over text, with the exact condition (each format map has each key once, times are 64 bit, as Rust's types make sure); members by name for bodies written by others; composed with the example verifier's handler (C165).
* **C190 Errors of status checks can be read.** The format strings of the errors over the JSON parser of `Core`; proved with the exact condition on the detail, and the ways in which other details break it.
* **C191 A presentation can be read from its text.** `from_str` over the readers of C119, the JSON parser and base64; round trips for both forms, an equivalence for the panic.
* **C192 A credential is accepted only from the one it was issued to.** On the verifier's model: the attack is built for every request and every set of tokens that answers it, without any key; the subject is shown to have no influence. What holds: every credential used was signed.
* **C193 Revoked, suspended and not yet valid credentials are refused.** On the verifier's model: the beginning and the status entry are shown to have no influence on the answer; the end of validity is proved to be respected.
* **C194 An accepted credential was signed by the issuer it names.** On the verifier's model: the issuer named has no influence on the answer, unless the request's constraints ask for it. What holds (some resolvable key signed it) is C192_credentials_are_signed_partial.
* **C195 Every key that is proved gets a credential.** On the issuer's model: the answer is shown to name no holder but the last one; the other keys get nothing, in every answer.
* **C196 A credential holds only the claims that were authorized.** Invariant over all histories and all overlaps of calls: no stored session limits the claims. Hence a credential asked for by its identifier holds the whole data set. What holds: the claims that a request by format names at its top level.
* **C197 An issued mobile document is of the type its configuration promises.** The issuer's model and the byte model of mobile documents together: what a reader of the issued text finds as the type, against the type in the configuration.
* **C198 A call that was broken off can be made again.** A separate small specification says what the world is after the first n effects of a call. A logic that follows a call effect by effect gives the state at every point. Credential requests and presentations are shown to be repeatable after any break; for codes and transactions the loss is proved for all later histories.
* **C199 What the issuer issues, the wallet can present and the verifier accepts.** The composed models of C101 (wallet and issuer) and C114 (wallet and verifier) with one wallet: the surroundings of the wallet are both at once, and storage that holds the last credential saved under each id. What C101 shows of the saved credentials is strengthened to the whole credential and the text that was signed.
* **C200 A flow for a scope runs to its end.** The composed model of C105, with the request for a scope in place of details: what the code stands for, the token without details, the credential by format at issuer and wallet. That a second credential is refused follows from C109, as every credential of such a flow is asked for by format.
* **C201 A credential that is tapped on the list is the one that opens.** The screens of C182 to C188. That the list on the screen is the list in memory follows from the invariants of C150 and C183; the rest is what tapping, the command and its answer come to.
* **C202 A wallet that stops in the middle of a call can go on.** A call of the wallet is cut after n effects, as the calls of the servers are for C198. That every endpoint writes at most once, and last, is shown by going through the programs; the first statement follows. Saving: with the invariant of C90. The token call: composition with the issuer; the spent code of C01 and the offer of the flow are kept by every further call and stop.
* **C203 A verifier that asks for formats and algorithms gets only such credentials.** By the exact characterisation of accepted responses (C52): the definition enters it with its id and, of each descriptor, id, constraints and format names; the submission with ids, paths and stated formats. The wallet: by what a present call sends.
* **C204 A state store may throw away what has expired.** A relation between the run over a store that keeps everything and one over a store from which expired entries are missing, carried through every history. For the issuer by a logic of programs: wherever a call reads an entry, it fails without effect if the entry has expired for a second. For the verifier the right store is a part of the left one.
* **C205 A message is read for what it says, however its text is written.** The grammar of RFC 8259 as an inductive relation between texts and values, next to the reader. Completeness by induction over the grammar, with the fuel of the reader bounded by the length of the text; soundness by induction over the fuel. The ways other programs write JSON by deriving their text in the grammar.
* **C206 An access token goes only to the issuer that gave it.** An invariant over the histories of the wallet: each stored flow keeps the issuer of metadata fetched in this flow, and a token that a reply to this flow gave. Each call's requests are then read off the flow it ran on. For overlapping calls the same as a pact in the logic of schedules: what is stored by one call is relied on by the others at any later point.
* **C207 The example wallet's requests arrive where the issuer takes them.** The requests of issuer_client.rs and verifier_client.rs as method, address and authorization header, and the routes of the example issuer as a function of method and path. The invariant of C206 carried over to histories of the application; what the addresses lead to by splitting them into host and path, for every host.
* **C208 However calls overlap, a wallet's requests speak for their own flow.** A pact between overlapping calls: each stored flow keeps the offer, client, picked configurations, PIN, token and nonce that calls for this flow brought in. Each endpoint keeps the pact at every step, so each request can be read off a flow that does. By induction over schedules.
* **C209 A wallet that asks for an encrypted response gets no credential in the clear.** The reader of credential requests with all members, and the endpoint behind it. The request with and without the member is read to what the endpoint is given, member by member, and the answers are compared; what cannot be read is refused.

## 5. Where the code and the property disagree

Every property with status `partial` in `MANIFEST.json`, with what is missing.

* **C06 The advertised token lifetime is honoured.** The advertised lifetime is false of the code: the negation is proved with a concrete history; the partial theorem gives the actual deadline.
* **C08 Anonymous pre-authorized access follows the server setting.** Refusal half holds; the acceptance half is false of the code and refuted for every input.
* **C12 Pushed authorization can be required without locking clients out.** Second half false of the code: with PAR required every push is refused, in every history.
* **C14 A pushed request URI is used at most once.** False of the code; negation proved.
* **C16 issuer_state only accepts credential offers.** False of the code; negation proved.
* **C20 Fetching an offer does not disturb other sessions.** False of the code; negation proved in general and on a run. What holds: no other entry changes.
* **C23 Proof of possession is bound to the issuer nonce.** False of the code for an empty proof list (negation proved on a run). What holds: every proof given is valid and over the session nonce.
* **C25 A proof cannot be replayed.** False of the code: a proof can be replayed by presenting the notification id as access token (negation proved on a run). Under the token itself no replay succeeds.
* **C32 A still-pending deferred credential can be polled again.** False of the code: the general negation is proved (a pending transaction can never be polled again).
* **C33 Notifications are accepted for issued credentials.** False of the code: the general negation is proved (every notification is refused in every reachable state).
* **C36 Unsupported claims are refused.** False of the code: the result of the check is ignored. The check itself is proved correct; the general negation is proved.
* **C38 OAuth errors serialize to their code and description.** True exactly for descriptions without quotes, backslashes and control characters; a description can otherwise replace the error code or lose the error. The pending error cannot be serialized at all.
* **C43 URL-encoded requests round-trip.** Proved for requests of any shape whose texts are plain; false in general: a delimiter in a text smuggles parameters, numbers become text, tuples and maps break the query.
* **C45 Message status entries do not overlap.** False for every size below eight (general theorem and witness); proved for sizes of at least eight.
* **C46 Bitstring generation never panics.** False for message entries within eight bits of the end and for overflowing indexes; proved otherwise.
* **C47 A status list credential can be produced.** False: building the credential fails for every input. Nothing of the positive claim holds.
* **C49 Constant filters compare values.** The code compares a string constant with the JSON text of the value, quotes included, so constant filters never match a plain string; proved as negation. The partial theorem covers the values for which the comparison does behave.
* **C50 Optional fields still have to satisfy their filter when present.** An optional field with a present but failing value is accepted (negation proved); required fields are checked.
* **C54 Expired presentation requests are refused.** False: the expiry is never checked (general independence theorem and a witness). What remains is refusal once the store has evicted the entry.
* **C55 Presentations are cryptographically verified.** False for object presentations, audience and holder binding (general theorems and witnesses). JWT presentations are verified.
* **C60 mDL digest identifiers are in range.** False for the least 32-bit integer (witness); proved otherwise.
* **C63 A failed holder step leaves the flow unchanged.** True of every endpoint but offer: a refused offer leaves a flow behind (proved). A write reported as failed may have taken effect.
* **C64 Accepted scope limits what is requested.** True of pre-authorized flows; in the authorization code flow what was accepted is ignored (proved for every history).
* **C65 Accept only accepts what was offered.** False: anything is accepted when no claims are given (proved for every list). With claims, the id is in the metadata, not necessarily in the offer.
* **C66 Several credentials can be collected in one call.** A successful call has asked for everything; against an issuer that accepts each proof once no call for two or more can succeed (proved for every history).
* **C67 The issuer is notified of the outcome.** False: in no history is any notification sent.
* **C68 Saving stores exactly the received credentials.** True of one save; while something is outstanding a second save stores everything again (proved).
* **C71 Presentation status text round-trips.** Round trip holds; parsing panics exactly for the texts described by C71_panics_iff.
* **C72 A presentation can be built for any request.** False without a const filter (proved for every history); true with one.
* **C74 Verifiers can read published status lists.** False: for every log the published bytes read wrongly.
* **C75 An mDL is bound to the holder's key.** False for every issuance.
* **C76 The mDL issuer signature is a COSE signature.** False for every issuance, under signature schemes where different messages have different signatures.
* **C79 The state of an authorization response is checked.** False: every authorization response is used whatever its state (proved for every history), with a witness.
* **C80 A flow talks to the issuer that made the offer.** False: requests go to the issuer the metadata names; witness with a different one. What holds: if every metadata reply names the issuer it was asked of, then codes, PINs, proofs and tokens of a flow all go to the issuer named in the offer, or to the one the wallet was told to turn to.
* **C81 The wallet never panics on issuer input.** No panic in any history when metadata lists are not empty; with an empty list of response types the wallet panics (proved generally).
* **C82 Saved credentials were made by the issuer of the offer.** False (witness); what holds is that saved credentials came from a response for the flow and verified.
* **C83 Proofs of possession are made out to the issuer.** True of flows with an offer; false of flows begun by the wallet (witness).
* **C84 Presentation requests are signed.** True of fetched requests; inline requests are accepted unsigned (proved generally).
* **C85 Proofs use the latest nonce.** True of credentials named by identifier, for the nonces of successful token and credential calls. False of scope-based requests (witness), of nonces that come with deferred credentials and of those in calls that fail (C109).
* **C86 Single-use values are single-use when calls overlap.** Every schedule: refused if started after the successful answer. False of overlapping calls (two witness schedules: one code redeemed twice; a wrong transaction code that does not use up the grant).
* **C88 A proof of possession is used once when calls overlap.** Every schedule: refused if started after the credential was answered. False of overlapping requests (witness schedules).
* **C89 A presentation request is answered once when calls overlap.** Every schedule: refused if started after the accepted response was answered; accepted responses answer a request that was made. False of overlapping responses (witness schedule).
* **C98 Issuer calls never panic.** Proved for issuers whose metadata names only implemented credential formats and whose list of authorization servers, if present, is not empty; for every request, state, fault pattern and schedule. False otherwise: a valid credential request for a configuration of any other format always reaches todo!() and a valid offer of an issuer with an empty list of authorization servers always indexes out of bounds (both proved in general). Arithmetic, allocation and the panics of dependencies are not modelled.
* **C100 An expired nonce can be replaced.** False in general: the credential endpoint answers access_denied, without a nonce, once the nonce has expired, and no other endpoint renews it, so a token left unused for ten minutes and a second is dead in every continuation (proved for every history). Proved: while the nonce is live, a missing or invalid proof gets a new one.
* **C102 A whole offer is collected in one call.** False: both requests of one credentials call carry the same key proof, and the issuer replaces its nonce when it answers the first. C102_batch_fails: in every history of wallet and issuer, a call for two or more credentials that need proofs fails and keeps nothing. One credential per call works (C101).
* **C104 An offered credential can be named by its format in a token request.** False: offers store the credentials by configuration id and the token endpoint compares them with the requested description as it is, so naming a credential by format is always refused. C103 is the part that holds: naming by configuration id works.
* **C107 Deferred credentials survive other issuance.** False as stated; refuted for all histories: with key proofs required, one later credential or invalid_proof answer under the same access token makes the transaction uncollectable for ever. The deferred endpoint checks the saved request's proof again, against the renewed nonce. C97 proves that it is collected when the session was not changed in between.
* **C109 A flow goes on after the issuer has sent a new nonce.** False, proved in general: if the issuer issued a credential in a wallet call that fails, or that names the credential by format, or that collects a deferred credential, or if it refused a proof (say because the nonce ran out), then the wallet does not keep the new nonce and every later credential request in that flow is refused, whatever happens later. True of successful calls by identifier (true part of C85; C101 and C105 use it to collect any number of credentials).
* **C112 An ended flow stays ended, also when calls overlap.** False as stated: a call for credentials that read the flow before it was cancelled writes it back afterwards, and its credential can then be saved (witness schedule). Proved for every continuation if no call about the flow was under way when it ended.
* **C113 Overlapping calls about one flow take effect one after the other.** False: the state is read, changed and written back without a lock, so of two overlapping calls for credentials that both end well one loses what it received; overlapping saves store everything twice. True part: calls about some flows that do not overlap each other take effect one after the other, whatever calls about other flows do meanwhile: a wallet that serves one call at a time gives the same results, makes the same calls and stores the same (so all that is proved of such a wallet holds of them); and then what was received is saved once each.
* **C115 A wallet that holds all that is asked for can answer.** False for requests with several input descriptors: the wallet looks for credentials for the first descriptor only, and its submission names the first credential of the presentation for every descriptor. Such a request is refused in every history unless that one credential fits all descriptors. Proved for requests with one descriptor (`C114_one_credential_accepted`).
* **C116 Claim descriptions survive the wire.** False for some descriptions made by programs: a set with a claim called `mandatory`, `value_type` or `display` cannot be read at all, an empty set comes back as a single claim. A definition beside nested claims is dropped without an error. Proved exactly which descriptions come back, and that everything read from JSON does.
* **C117 Authorization details survive the wire, and are honoured or refused.** False: if the claims beside a configuration id cannot be read, the detail is not refused but read as one for the whole credential (the flattened option takes any error for absence); a format beside a configuration id is dropped; claims of the SD-JWT profile are read as those of the mdoc profile (both are called `claims`). Proved exactly which details come back, and that everything read from JSON does.
* **C118 Authorization requests survive as text.** False: a request by reference cannot be read back from its own text (which holds no `&` and is taken for JSON), and as JSON is read as an empty request; a request with any unknown parameter is refused (the reader leaves its value unread); repeated parameters are accepted and the last counts; `[]` is a request. Proved for requests made of plain texts; for others see C43.
* **C119 Credentials and presentations survive the wire.** False: a credential whose subject has an identifier and a claim called `id` is written with that member twice and cannot be read (without an identifier the claim becomes the identifier); an empty list of proofs comes back as one empty proof; the members of a status are written in snake case and a status named as recommended makes the credential unreadable; evidence with one further member that is not text loses all of them. Proved exactly which credentials and presentations come back, alone and in tokens, and that everything read does, evidence aside.
* **C120 Issued credentials can be read.** False if the Subject service has a claim called `id` for the subject: unless it is narrowed away, the issuer signs and hands out a credential no one can read. Proved for all Subject services without such a claim.
* **C123 A presentation request given as a query string reaches the wallet as it was made.** Proved for requests made of plain texts (no character JSON escapes, no `=` or `&`, no bracket at either end) and without registration times. Violated by the code otherwise: a JSONPath such as `$['type']` or a purpose with `&` makes the query string unreadable (`C123_bracketed_path_unreadable`, `C123_ampersand_unreadable`), a purpose with quotation marks is read as members of the definition (`C123_quotes_change_request`), and with the wallet's address before it the query string can never be read, since nothing strips the part up to the question mark (`C123_url_unreadable`).
* **C124 Messages between a wallet and a verifier mean the same on both sides.** Proved for signed request objects, for the wallet's answers and the verifier's replies. Violated by the code for request objects that are not signed: the derived writer gives the member `request_object` inside the member `request_object`, the hand-written reader expects one level, so no such answer can be read (`C124_object_form_unreadable`).
* **C125 Messages between a wallet and an issuer mean the same on both sides.** Proved: every message comes back, the ones with authorization details, lifetimes or plain credentials exactly if those can be put in words. Violated by the code for malformed optional parts: a client assertion or a proof that cannot be read is silently taken for none (`C125_bad_assertion_dropped`, `C125_bad_proof_dropped`).
* **C126 What an issuer publishes is read as it was published.** Proved for issuer metadata (exactly if configurations are named once and their claims can be put in words) and server metadata. Violated for clients: `credential_offer_endpoint` is a member of the client and of the flattened OAuth client, so a client with both cannot be read (`C126_two_endpoints_unreadable`) and one with the inner one only is read with it moved (`C126_endpoint_moves`); the documented default of the anonymous-access member is not applied (`C126_anonymous_access_has_no_default`).
* **C127 A wallet and an issuer that talk over JSON text do what they do in one process.** Proved for issuers whose published claims can be put in words and that offer no selective-disclosure credentials, and users asking for claims that can be put in words. Violated for selective-disclosure credentials: a token request that narrows the claims of one is read as narrowing a mobile driving licence (`C127_narrowed_sd_jwt_becomes_mdoc`).
* **C128 Messages written by other implementations of the protocols are understood.** Proved for every message of the issuance and presentation flows, for metadata and for credentials, with literal member names. Violated, each for all messages of the kind: a token type not written `Bearer` (compared without case in OAuth 2.0); `ldp_vc` credentials; an issuer's list of displays; authorization servers that leave out whether anonymous access is supported, or that publish one grant, response mode, authentication method, signing algorithm or challenge method vercre does not know; clients with a list of contacts or with keys; filters that are not a type with one of `const`, `pattern`, `format`; submissions without `path_nested`; a single presentation that is not in a list; credentials with a W3C bitstring status; credential tokens without `jti` or `sub`.
* **C130 A wallet whose store keeps JSON text works as one that keeps the flows themselves.** Holds for every history in which metadata offers no selective-disclosure format; false for those: the claims the user chose of such a credential are written without their kind, and come back as those of a mobile driving licence (`C130_narrowed_sd_jwt_comes_back_as_mdoc`), because the untagged reader tries that kind first.
* **C131 The request macros build the request that their JSON-like text stands for.** Holds for plain text that compiles. False otherwise: two authorization details, or two grant types, do not compile, as no comma is put between them (`C131_several_details_refused`, `C131_several_grants_refused`); token_request! cannot narrow a credential (`C131_narrowing_token_refused`); credential_request! silently drops the claims asked for (`C131_claims_dropped`); `mandatory` and the like become claims (`C131_remarks_become_claims`); any response type and challenge method is taken for code and S256 (`C131_response_type_ignored`); the names of send types differ from those in JSON and unknown ones mean by value (`C131_send_type_misread`); of a repeated member the last counts (`C131_repeated_member`); the type of a detail is checked only if it is a literal (`C131_type_unchecked`); a borrowed text is taken for some members and not for others (`C131_borrowed_refused`). A second translation (`Verif/Macros`), with Rust expressions of more types, is characterised member by member: exactly when a call compiles and what the request then says. It agrees with the first on the expressions known to both (`C131_offers_agree`, `C131_tokens_agree`, `C131_credentials_agree`, and, if no name is written twice, `C131_authorizations_agree`). There also: `locations` are dropped (`C131_locations_lost`), and a code cannot be redeemed without a verifier (`C131_verifier_needed`).
* **C132 A key proof works at the issuer it was made for only.** False: `aud`, `iss` and `iat` of a key proof are never looked at, so no step of any history depends on them (`C132_audience_ignored`, `C132_audience_ignored_throughout`; a run in `C132_proof_for_another_issuer_accepted`). What ties a proof to an issuer is the nonce alone (`C23_proofs_bound_to_nonce_partial`).
* **C133 Every credential has an id of its own.** False: the id is made of the issuer and the type only (`C133_id_tells_issuer_and_type_partial`), so all credentials of one type that an issuer ever issues have one id (`C133_credentials_share_their_id`) and a wallet keeps only the last of those it takes in (`C133_wallet_keeps_only_the_last`).
* **C134 The status of one credential can be changed without touching another.** False: the Status service is asked about the subject and the fixed text `credential_identifier`, never about the credential (`C134_credential_never_named`), so all credentials of a subject share one entry (`C134_one_status_per_subject`). Holds: the entry is what the service says of the session's subject (`C134_status_of_subject_partial`).
* **C135 Every scope value asked for is honoured or refused.** False: only the first scope value is looked at; the others are neither honoured nor refused (`C135_only_first_value_counts`, `C135_further_values_ignored`). Holds for the first value (`C135_first_value_honoured_partial`).
* **C136 What one credential issuer of a service authorized is honoured by that issuer only.** False: states keep no issuer, so a code can be redeemed at any issuer of the service with the same server settings (`C136_code_redeemed_elsewhere`), and the token gets a credential in the name and with the key of another issuer (`C136_credential_issued_elsewhere`). Holds: that issuer must have a configuration of the authorized name (`C136_configuration_needed_partial`).
* **C137 An access token stops working when its advertised lifetime is over.** False: each credential request, even one refused for lack of a proof, renews session and nonce, so that a token can be kept alive for any time (`C137_token_outlives_any_lifetime`) and still gets a credential then (`C137_credential_after_any_time`). Holds: a token that was left alone for its time never works again (`C99_expired_stays_expired`, `C100_expired_nonce_never_replaced`).
* **C138 The example issuer gives codes only to people who have logged in.** False: once the user has logged in anywhere, every later acceptable request for them gets a code, from any browser (`C138_one_login_serves_all`); and the token of a login form passes for the name of a logged-in user (`C138_form_token_passes_for_user`). Holds: without any login and without such a token there is no code (`C138_code_needs_login_partial`).
* **C139 The example issuer returns the state of an authorization request.** False: the reply is the same whatever state the request has (`C139_state_never_returned`).
* **C140 The example issuer redirects only to registered URIs.** False for errors: a request with an unregistered URI, or of an unknown client, is answered with a redirect to the URI it names (`C140_error_sent_to_any_uri`). Holds for codes (`C140_code_to_registered_uri_partial`).
* **C141 A pushed authorization request can be completed at the example issuer.** False: pushed requests get a login form in every history (`C141_push_gets_a_form`), whose token the login refuses ever after (`C141_form_of_push_refused`); a server that requires pushed requests gives no codes at all (`C141_no_codes_if_push_required`). Holds for requests that are not pushed (`C141_direct_request_goes_through_partial`).
* **C142 The example issuer acts in the name of the host it is reached at.** False for authorization requests: the host makes no difference (`C142_host_ignored`), and a request that names no issuer gets no code (`C142_no_code_without_issuer`). Holds for the other endpoints (`C142_api_requests_addressed_partial`, `C142_token_request_addressed_partial`).
* **C143 The example issuer's data store serves every question on its own.** False: a question about an unknown person poisons the lock, and every later question panics (`C143_unknown_subject_ends_it`). Holds as long as all questions are about known people (`C143_known_subjects_served_partial`).
* **C144 A pending data set is available from the second asking on.** False for overlapping questions: one about another credential of the same person writes back what it read before, and the credential is pending again (`C144_pending_again`). Holds for one question at a time (`C144_available_after_first_asking_partial`).
* **C145 A login form at the example issuer can be sent in once and leads back to its own request.** False: once somebody has logged in, the user's name passes for a token, any number of times (`C145_user_name_passes`). Holds for all other tokens (`C145_token_used_once_partial`, `C145_login_needs_form_partial`); and each form's token leads back to its own request (`C145_login_leads_to_its_request`).
* **C146 The example issuer reads the token request the example wallet sent.** False for selections: a form has no place for a list, so such a request is not sent (`C146_selection_not_sent`), could not be read (`C146_selection_not_read`), and the wallet gets no token whoever is at the other end (`C146_no_token_for_selection`, `C146_no_token_for_authorized_selection`). Holds for requests that select nothing (`C146_token_request_arrives_partial`). The headers of the request are not modelled.
* **C147 The example verifier reads the presentation the example wallet sent.** False: presentations and submissions are structures, for which a form has no place. The wallet cannot send them (`C147_presentations_not_sent`, `C147_wallet_presents_nothing`), the verifier cannot read them (`C147_presentations_not_read`) and accepts nothing (`C147_verifier_accepts_nothing`). Only the state arrives (`C147_state_arrives_partial`).
* **C148 The redirect after a login leads on with the request that was made.** False for requests with details, whose redirect cannot be read (`C148_details_lost`; nor can any other query with details, `C148_details_not_read`), and for texts with an ampersand, which can change the client (`C148_redirect_changes_client`). Holds for requests by scope without ampersands (`C148_redirect_leads_back_partial`).
* **C149 The example wallet lists the credentials it has.** False if a write fails: a credential whose deletion could not be written is out of the store but stays on the list (`C149_violated_stale_list`). Holds in full while writes succeed (`C149_list_is_stored_partial`); and in any case nothing in the store is missing from the list (`C149_stored_are_listed`).
* **C150 The example wallet's user decides about what they see.** False: an offer that cannot be shown, because one of its credentials has no display, takes the place of the one on the screen without being seen, and is what the user then accepts (`C150_violated_unseen_offer`). Holds whenever the command comes back with a view (`C150_accepted_is_shown_partial`, `C150_authorized_is_shown_partial`, `C150_pin_shown`), since a state that can be shown is on the screen (`C150_screen_is_current`). What the user sees between deciding and the command being served is not modelled: commands do not say which offer they are about.
* **C151 Credentials in the example wallet outlive it, deleted ones do not come back.** Holds for what is reported to have worked (`C151_collected_are_stored`, `C151_deleted`), and for everything after it (`C151_stored_stays`, `C151_gone_stays_gone`). False for what is reported to have failed: a credential that could not be saved is listed until the next start (`C151_violated_unsaved_listed`), and a failed deletion takes effect with the next write (`C151_violated_deletion_later`).
* **C152 The example wallet can always show its list.** False: the list is shown exactly if each stored credential has a display (`C152_list_shown_iff`); one that has none – the specification does not require any – and the application panics whenever the list is asked for, for good (`C152_violated_never_again`).
* **C153 Offers and requests made by the library reach the example wallet as links.** False: the query string the library puts into QR codes is not what the wallet reads, for any offer (`C153_violated_query_unreadable`, `C153_violated_query_link`), and links with the prefixes the library's documentation gives are ignored (`C153_violated_suggested_links_ignored`). Offers as percent-encoded JSON are read (`C153_json_offer_read_partial`), and the wallet's own links do what the commands do (`C153_link_is_command`). `percent-encoding`'s and `urlencoding`'s decoders are modelled as documented.
* **C154 The details of a credential show all of its claims.** False for several subjects: claims of the same name hide each other (`C154_violated_claim_hidden`). Holds for one subject (`C154_one_subject_partial`); in general the last claim of each name is shown (`C154_details`).
* **C157 The example wallet's user sees to whom they present what.** False: the verifier is not shown; requests for which the same credentials are found look the same (`C157_violated_verifier_unseen`, `C157_violated_two_verifiers`). All credentials to be presented are shown (`C157_credentials_shown_partial`).
* **C159 Readers made to the standard can read an issued mDL.** False for every mDL that is issued with at least one element: items have members `digest_id`, `element_identifier` and `element_value` instead of `digestID`, `elementIdentifier` and `elementValue`, and salts and digests are arrays of numbers instead of byte strings (`C159_violated_items`, `C159_violated_mso`). The times are plain text instead of dates even if there is no element. What holds is the envelope: the names and shapes of the outer members (`C159_envelope_partial`).
* **C160 The digests in an mDL are over the items as a reader has them.** Depends on `Tag24::to_vec` of the external crate vercre-infosec, whose source is not at hand. If it gives the tagged byte string the property holds, if it gives the bytes inside it fails for every item; the theorem proves both directions. The repository's own test reads the security object as if it were the latter.
* **C162 A wallet can take in every credential the issuer issues.** False for mDL credentials, which the issuer issues for configurations of format `mso_mdoc`: the wallet takes every credential to be a JWT, so every call that is answered with an mDL fails, along with the other credentials it was answered with, and no mDL is ever stored. Assumed: the external JWT decoder accepts only texts with a dot. For JWT credentials it holds (`C101_wallet_collects_offer`).
* **C163 The example wallet gives out only credentials that were asked for.** What is sent was found for the first input descriptor of an authorized request, in every history (`C163_sent_was_asked_partial`, `C163_found_exactly`). False is that the submission speaks of all that is sent: if several credentials fit, all of them go out, and the submission leads to the first one only (`C163_violated_sent_unnamed`, `C163_violated_two_sent`); the user cannot choose among them.
* **C164 A request that limits disclosure is respected.** False: `limit_disclosure` is never looked at. The same credentials are found with and without it, and they are sent in full (`C163_violated_two_sent` has a request with `required`). It holds only for requests without the member, of which it says nothing.
* **C166 A presentation request made at the example verifier can be fetched until it is answered or has expired, and not after.** Proved is that the request can be fetched after any history. False is that this ever ends: neither time nor an answer ends it (the example verifier cannot read any answer, C147; and expiry is not looked at when a request is fetched). Assumed: drawn tokens differ; the store works when the request is fetched.
* **C167 The status of an answer of the example servers tells callers' faults from the servers'.** Status 200 means success and nothing else does, at the endpoints of the library. Every failure, whoever is at fault, has status 500, at both servers.
* **C168 What the example issuer's authorization endpoint decided reaches the client.** Proved for addresses without a query and error texts without `&` and without anything JSON escapes. False otherwise: behind an address with a query the code is put after a second question mark, where the client finds no parameter `code`; a scope with an ampersand puts parameters of the request's choice, such as `code`, into the redirect that refuses it; and a scope with a quotation mark leaves the client without any error at all.
* **C169 An offer that the user of the example wallet accepts ends up as credentials in the wallet.** Proved for offers that give the subject one credential. False for two or more, if the credentials need key proofs: the application asks for all in one call, both requests carry the same proof, the issuer takes it once (C102), and the command fails with nothing stored, whatever came before.
* **C170 A request for a credential that the user of the example wallet has can be answered.** Exactly when the verifier accepts is proved: if the request asks for a constant and the first credential found is one that all input descriptors ask for. So a request for one credential is answered if none of those found has expired. False otherwise: the wallet sends expired credentials as well and names the first one, so an expired credential is in the way of a good one; and see C72 and C115. Messages are handed over as values: the form the example wallet sends is not read by the example verifier (C147).
* **C171 Only the bearer of a live access token can register a client.** False. `register` looks the token up in the store and asks only that something is there: neither what it is nor when it expires. So the address of a pushed request, a code, a transaction or notification identifier serve as well as a token, at any time. What holds is that the value must be one that the issuer drew, and that a redeemed code does not serve.
* **C172 A client that registers can use what it registered, and nobody's registration touches another's.** Identity, persistence, separation and the safety of codes hold (identifiers are taken not to repeat). Service holds of clients that register everything an authorization needs. False of clients that leave out grant types, response types or scope, for which RFC 7591 has defaults: they are registered, and then every authorization request of theirs is refused, and without a scope every token request too.
* **C173 The user of the example wallet can collect what the example issuer offers.** False, for two independent reasons. The wallet calls itself `wallet`, which is not among the clients the example issuer comes with, and no route of that issuer registers clients: every token request is refused, so nothing is ever collected. And the metadata the issuer gives out at `http://localhost:8080` say `http://vercre.io`: that is where the wallet then sends its requests. With both repaired, one credential offered is collected (C169; two never are).
* **C174 Logins and codes at the example issuer survive overlapping and broken-off requests.** False for requests that are broken off: a login takes the request out of the map before it puts it back under the user's name, so that a login cut short there loses the form for good, and one with the user's name for a token logs the user out. Two known flaws remain in the true part: a subject that is named like the token of a form counts as logged in (C138), and the user's name passes for a token (C145). The rest holds for all schedules.
* **C178 What has expired when a request comes in gets nothing, however requests overlap.** Holds of codes, offer ids, transaction ids, issuer states and pushed requests under every schedule. False of sessions in general: a credential request that has passed the expiry checks renews the session when it writes, even if the session has expired meanwhile, and requests that came in after the expiry are then served (`C178_violated_session_revived`). Holds of sessions if no request that reads a record of the session is under way when it expires.
* **C180 A code stands for credentials the issuer publishes.** False as stated: `C180_violated` shows that every otherwise valid request that names an unpublished configuration without listing claims gets a code that stands for it, if the Subject provider authorizes the subject. Holds of credentials described by format, with listed claims or asked for by scope (`C180_configuration_published_partial`); and credential requests for unpublished configurations are always refused (`C180_unpublished_never_issued`).
* **C182 An offer the user accepts on the screens is collected.** False: `C182_violated_never_collected` and `C182_violated_stays_empty` show for every history that the wallet never collects anything through its screens (`IssuanceView` has no `status`, on which Issuance/index.tsx 24-40 depends). `C182_accepted_is_shown_partial` keeps the true part: the offer that is accepted is the one on the screen, if nothing is on its way.
* **C183 Nothing is presented but what the user authorized on the screen.** False in general: `C183_violated_raced` is a run in which the user authorizes one request while another one's credentials are on the screen. True: no presentation without a press, at most one per press (`C183_pressed_partial`); and with nothing on its way it is what is on the screen (`C183_calm_partial`).
* **C185 An opened offer or request stays on the screen until the user decides.** False: `C185_violated_taken_away` is a run in which the splash screen's timer (Splash/index.tsx 16-18, never cleared) takes a request off the screen that the user has not decided about. `C185_stays_partial` holds once the timer has gone off and nothing is on its way.
* **C186 The user can always get back to the list.** False: `C186_violated_no_way_back` reaches the screen on which nothing the user can press does anything (`C186_violated_stuck`): a presentation was authorized and could not be sent. Of all other screens `C186_back_partial` holds.
* **C187 What the user pastes gets to the wallet as it was.** False of offers longer than the field (`C187_violated_cut_off`: all whose issuer has an address of 1002 or more plain characters) and of requests by value (`C187_violated_by_value`: `encodeURIComponent` hides the `&` that vercre-holder looks for). `C187_offer_pasted_partial` and `C187_request_fetched_partial` are the true parts.
* **C188 The details of a credential on the screen tell what it says.** False of the names of claims: `C188_violated_names_not_shown` (Detail.tsx 68-70 passes `name={value}`). Values, and the issuer's authority, are shown: `C188_values_shown_partial`, `C188_nothing_else`, `C188_issuer_shown_partial`. For several subjects see C154.
* **C190 Errors of status checks can be read.** True exactly for details without quotes, backslashes and control characters (C190_error_json_partial is an equivalence). False otherwise: C190_detail_replaces_type, C190_control_character_loses_error.
* **C191 A presentation can be read from its text.** The round trips hold for all presentations that can be put in words (C119). `from_str` looks at the first byte with a slice, which panics on just the texts that C191_panics_iff names, and takes JSON with white space before it for base64 (C191_space_refused).
* **C192 A credential is accepted only from the one it was issued to.** False in the code: C192_anyone_presents builds, for every request, an accepted response by a presenter without any key; C192_subject_ignored shows that the subject makes no difference in signed presentations either. True part: the credentials used were signed.
* **C193 Revoked, suspended and not yet valid credentials are refused.** False in the code: C193_status_and_start_ignored, and the instance C193_not_yet_valid_accepted. The lookup of the status is a TODO at response.rs 184. True part: the end of validity is respected (C193_not_expired_partial).
* **C194 An accepted credential was signed by the issuer it names.** False in the code: C194_issuer_ignored, C194_iss_ignored. True part: the token verifies under some key the resolver finds (C192_credentials_are_signed_partial).
* **C195 Every key that is proved gets a credential.** False in the code: C195_other_keys_get_nothing, instance C195_two_keys_one_credential. True part: all the proofs must be valid and the credential is bound to the last key.
* **C196 A credential holds only the claims that were authorized.** False in the code: `claim_ids` is always `None` (token.rs 325-346), so C196_limits_forgotten and C196_every_claim_issued; instance C196_more_than_asked. True part: C196_named_in_request_partial.
* **C197 An issued mobile document is of the type its configuration promises.** False in the code: C197_other_types_never_made, instance C197_photo_id_is_a_licence. True part: the type is as promised exactly for driving licences.
* **C198 A call that was broken off can be made again.** False in the code for codes and transactions, which are purged before the answer is made (token.rs 52-55, deferred.rs 52-55): C198_code_lost, C198_transaction_lost. True part: credential requests (C198_credential_repeatable_partial, possibly with the fresh nonce of an invalid_proof answer) and presentations (C198_response_repeatable).
* **C200 A flow for a scope runs to its end.** One credential is collected as claimed, for a scope of one word. A second one in the same flow is always refused, whatever the scope covers: credential_by_format (credentials.rs 139-184) does not take over the new nonce that comes with each credential, as credential_by_identifier does (245-250). For a scope of several words the issuer grants the first (authorize.rs 326) and the wallet looks for a configuration with the whole text (credentials.rs 148-152), so that there is a token but never a credential. When several credentials are authorized in one configuration, which of them is issued is up to the order of a hash map.
* **C201 A credential that is tapped on the list is the one that opens.** Proved when everything has reached the screen and the list can be shown. With clicks before the answer it is false that only what was tapped last counts: the answer to `select` sets the mode of the screen whenever it comes (Credential/index.tsx 26-28).
* **C202 A wallet that stops in the middle of a call can go on.** True of what is kept, for every call and every point, and of saving (what was handed to the storage before the stop is handed over again). False of the token call: token.rs 70-95 spends the code at the issuer and saves the token after that, and has no way to ask for it again (C202_token_lost, with the issuer of this repository).
* **C203 A verifier that asks for formats and algorithms gets only such credentials.** False in the code: response.rs 133-141 compares the format stated in the submission with the names the descriptor lists, nothing else (C203_restrictions_ignored, C203_name_decides). present.rs 85-113 states jwt_vc_json for every credential, whereas create_request.rs 122 uses jwt_vc (C203_wallet_never_accepted). True part: the stated format is one of those listed, and the credential is a token that verifies.
* **C204 A state store may throw away what has expired.** False in the code in three places: the last second (state.rs 35-37 compares whole seconds), registration (register.rs 17-46 does not check expiry) and the verifier's requests (response.rs and request_object.rs do not check expiry). True part: from one second after the expiry on, entries can be expunged at will, and every issuer call but registration is answered alike; registration and the verifier never succeed where they would not over a store that keeps everything; with a store that expunges at once the verifier answers in time only. Assumes a store without faults; one call at a time.
* **C207 The example wallet's requests arrive where the issuer takes them.** Requests go to /token and /credential under the issuer's name, with the token given there (proved for every history), and arrive if the issuer runs the routes of the example issuer and its metadata names the host it was asked of. False otherwise: endpoints an issuer publishes are ignored; an identifier ending with / reaches no handler; the deferred endpoint that the example issuer publishes is not served; and the example issuer names itself http://vercre.io also at localhost:8080, so what is sent for its offers misses it.
* **C209 A wallet that asks for an encrypted response gets no credential in the clear.** Proved: a request that asks for encryption and does not say with which key or algorithms is refused. False of the code: no endpoint looks at the member, so that asking for encryption changes nothing about the answer, which has the credential in the clear (`C209_violated_answered_in_the_clear`).

## 6. Axioms of each theorem

As printed by `#print axioms` for every theorem named in `MANIFEST.json`.

* **Classical.choice, Quot.sound, propext**: `App.AnswerDemo.C170_violated_old_and_good`, `App.C149_list_is_stored_partial`, `App.C149_stored_are_listed`, `App.C150_accepted_is_shown_partial`, `App.C150_authorized_is_shown_partial`, `App.C150_pin_shown`, `App.C150_screen_is_current`, `App.C151_collected_are_stored`, `App.C151_deleted`, `App.C151_gone_stays_gone`, `App.C151_stored_stays`, `App.C152_list_shown_iff`, `App.C152_violated_never_again`, `App.C153_json_offer_read_partial`, `App.C153_link_is_command`, `App.C153_violated_query_link`, `App.C153_violated_query_unreadable`, `App.C153_violated_suggested_links_ignored`, `App.C154_details`, `App.C154_one_subject_partial`, `App.C154_violated_claim_hidden`, `App.C155_abandoned_flows_stay`, `App.C155_nothing_pending`, `App.C156_code_needed`, `App.C156_unimplemented_not_reached`, `App.C157_credentials_shown_partial`, `App.C157_violated_verifier_unseen`, `App.C163_found_exactly`, `App.C163_sent_was_asked_partial`, `App.C163_violated_sent_unnamed`, `App.C164_violated_same_found`, `App.C164_violated_sent_whole`, `App.C169_offer_ends_in_store_partial`, `App.C169_violated_two_are_never_collected`, `App.C170_accepted_iff`, `App.C170_one_credential_partial`, `App.C170_violated_expired_in_the_way`, `App.C173_known_and_at_its_address_partial`, `App.C173_violated_nothing_collected`, `App.C173_violated_refused`, `App.C173_violated_sent_elsewhere`, `App.C182_accepted_is_shown_partial`, `App.C182_violated_never_collected`, `App.C182_violated_stays_empty`, `App.C183_calm_partial`, `App.C183_pressed_partial`, `App.C184_deleted_was_confirmed`, `App.C185_stays_partial`, `App.C186_back_partial`, `App.C186_violated_stuck`, `App.C187_offer_pasted_partial`, `App.C187_request_fetched_partial`, `App.C187_violated_by_value`, `App.C187_violated_cut_off`, `App.C188_issuer_shown_partial`, `App.C188_nothing_else`, `App.C188_values_shown_partial`, `App.C188_violated_names_not_shown`, `App.C201_tapped_is_opened`, `App.C201_violated_form_lost`, `App.C207_deferred_not_served`, `App.C207_example_issuer_missed`, `App.C207_handlers_reached_partial`, `App.C207_metadata_address_iff`, `App.C207_own_name_arrives_partial`, `App.C207_sent_under_named_issuer_partial`, `App.C207_slash_reaches_nothing`, `App.Demo.C149_violated_stale_list`, `App.Demo.C150_violated_unseen_offer`, `App.Demo.C151_violated_deletion_later`, `App.Demo.C151_violated_unsaved_listed`, `App.Demo.C157_violated_two_verifiers`, `App.Demo.C163_violated_two_sent`, `App.Demo.C183_violated_raced`, `App.Demo.C185_violated_taken_away`, `App.Demo.C186_violated_no_way_back`, `C37_format_lookup`, `C37_order_irrelevant`, `C38_control_character_loses_error`, `C38_description_replaces_code`, `C38_error_json_partial`, `C38_error_serializes_partial`, `C38_error_told_apart_partial`, `C38_invalid_proof_partial`, `C38_issuance_pending`, `C38_unexpected_format_lost`, `C40_distinct_draws_distinct_tokens`, `C40_tokens_url_safe`, `C40_tx_code_six_digits`, `C41_challenge_accepted`, `C41_verifier_length`, `C42_encoding_injective`, `C42_encoding_is_query_text`, `C42_percent_round_trip`, `C43_bracket_text_changes`, `C43_empty_request_fails`, `C43_map_breaks_query`, `C43_number_becomes_text`, `C43_parameter_injection`, `C43_query_is_json_partial`, `C43_query_round_trip_partial`, `C43_tuple_breaks_query`, `C56_vc_builds`, `C56_vc_content`, `C56_vc_mandatory`, `C56_vp`, `Dif.C48_constraints`, `Dif.C48_refusal`, `Dif.C49_const_filters_fail`, `Dif.C49_numbers_and_arrays_partial`, `Dif.C49_refused_example`, `Dif.C50_failing_value_accepted`, `Dif.C50_optional_filter_ignored`, `Dif.C50_required_fields_checked_partial`, `Holder.C110_credential_after_token`, `Holder.C110_deferred_after_token`, `Holder.C110_never_notifies`, `Holder.C110_presented_authorized`, `Holder.C110_refused_consent_is_none`, `Holder.C110_saved_came`, `Holder.C110_token_after_acceptance`, `Holder.C111_flows_independent`, `Holder.C111_own_flow_only`, `Holder.C112_ended_stays_ended_partial`, `Holder.C113_one_after_another_partial`, `Holder.C113_saved_once_partial`, `Holder.C202_before_or_after`, `Holder.C202_save_again`, `Holder.C206_sent_to_named_issuer`, `Holder.C206_sent_to_named_issuer_overlap`, `Holder.C206_token_goes_where_it_came_from`, `Holder.C206_token_goes_where_it_came_from_overlap`, `Holder.C208_authorization_request`, `Holder.C208_code_redeemed_by_its_call`, `Holder.C208_credential_request`, `Holder.C208_pre_authorized_token_request`, `Holder.C62_credentials_after_token`, `Holder.C62_token_after_acceptance`, `Holder.C63_failed_call_changes_nothing`, `Holder.C63_failed_call_keeps_flows`, `Holder.C63_refused_offer_leaves_flow`, `Holder.C64_accepted_scope_partial`, `Holder.C64_authorize_ignores_acceptance`, `Holder.C65_accepted_claims_known_partial`, `Holder.C65_accepts_what_was_not_offered`, `Holder.C66_all_requested_partial`, `Holder.C66_batch_fails`, `Holder.C67_never_notifies`, `Holder.C68_save_ends_flow`, `Holder.C68_saved_again`, `Holder.C68_saved_credentials_came`, `Holder.C68_saves_what_was_received`, `Holder.C69_outstanding_reported`, `Holder.C70_presented_is_authorized`, `Holder.C72_no_const_no_presentation`, `Holder.C72_presented_with_const_partial`, `Holder.C73_submission`, `Holder.C77_ended_flows_stay_ended`, `Holder.C78_code_redeemed_with_its_verifier`, `Holder.C78_verifiers_distinct`, `Holder.C79_state_not_checked`, `Holder.C80_sent_to_own_issuer_overlap_partial`, `Holder.C80_sent_to_own_issuer_partial`, `Holder.C80_token_goes_where_metadata_says`, `Holder.C81_no_panic_partial`, `Holder.C81_panics_on_empty_list`, `Holder.C83_proof_for_offering_issuer_partial`, `Holder.C84_fetched_request_signed_partial`, `Holder.C84_inline_request_unsigned`, `Holder.C85_proof_over_latest_nonce_partial`, `Holder.C90_received_can_be_saved`, `Holder.Demo.C112_cancelled_flow_returns`, `Holder.Demo.C113_received_credential_lost`, `Holder.Demo.C113_saved_twice`, `Holder.Demo.C79_foreign_state_accepted`, `Holder.Demo.C80_code_sent_elsewhere`, `Holder.Demo.C82_saves_credentials_of_strangers`, `Holder.Demo.C83_wallet_flow_without_audience`, `Holder.Demo.C85_stale_nonce`, `Holder.StatusText.C71_panics_iff`, `Holder.StatusText.C71_parse_panics`, `Holder.StatusText.C71_round_trip_partial`, `Interop.C101_wallet_collects_offer`, `Interop.C102_batch_fails`, `Interop.C105_wallet_initiated`, `Interop.C106_offer_authorized`, `Interop.C108_late_credential_reaches_wallet`, `Interop.C109_flow_stuck`, `Interop.C114_accepted_iff`, `Interop.C114_one_credential_accepted`, `Interop.C115_several_credentials_refused`, `Interop.C199_issued_is_accepted`, `Interop.C200_one_credential_only`, `Interop.C200_scope_flow_partial`, `Interop.C200_violated_several_words`, `Interop.C202_token_lost`, `Interop.C203_called_as_asked_partial`, `Interop.C203_name_decides`, `Interop.C203_restrictions_ignored`, `Interop.C203_wallet_never_accepted`, `Interop.PresentDemo.C115_each_held_both_refused`, `Issuer.C01_grant_codes_single_use`, `Issuer.C01_token_removes_code`, `Issuer.C02_token_needs_matching_grant`, `Issuer.C03_token_never_widens`, `Issuer.C04_preauthorized_narrows`, `Issuer.C05_expired_refused`, `Issuer.C05_live_accepted`, `Issuer.C06_advertised_lifetime_not_honoured`, `Issuer.C06_token_lives_as_long_as_grant_partial`, `Issuer.C07_token_client_registered`, `Issuer.C08_anonymous_access_never_accepted`, `Issuer.C08_anonymous_refused_partial`, `Issuer.C09_code_needs_valid_request`, `Issuer.C100_expired_nonce_never_replaced`, `Issuer.C100_nonce_replaced_partial`, `Issuer.C103_token_granted_iff`, `Issuer.C104_named_by_format_refused`, `Issuer.C107_deferred_lost_on_renewal`, `Issuer.C10_code_carries_binding`, `Issuer.C10_code_redeemable`, `Issuer.C11_authorized_as_subject_provider_says`, `Issuer.C11_refused_when_subject_provider_refuses`, `Issuer.C12_direct_refused_partial`, `Issuer.C12_required_par_locks_out`, `Issuer.C132_audience_ignored`, `Issuer.C132_audience_ignored_throughout`, `Issuer.C132_proof_for_another_issuer_accepted`, `Issuer.C133_credentials_share_their_id`, `Issuer.C133_id_tells_issuer_and_type_partial`, `Issuer.C133_wallet_keeps_only_the_last`, `Issuer.C134_credential_never_named`, `Issuer.C134_one_status_per_subject`, `Issuer.C134_status_of_subject_partial`, `Issuer.C135_first_value_honoured_partial`, `Issuer.C135_further_values_ignored`, `Issuer.C135_only_first_value_counts`, `Issuer.C136_code_redeemed_elsewhere`, `Issuer.C136_configuration_needed_partial`, `Issuer.C136_credential_issued_elsewhere`, `Issuer.C137_credential_after_any_time`, `Issuer.C137_token_outlives_any_lifetime`, `Issuer.C13_pushed_request_expires`, `Issuer.C14_request_uri_reusable`, `Issuer.C15_issuer_state_bound_and_consumed`, `Issuer.C15_issuer_state_single_use`, `Issuer.C16_access_token_as_issuer_state`, `Issuer.C171_made_up_partial`, `Issuer.C171_redeemed_partial`, `Issuer.C171_violated`, `Issuer.C172_code_to_own_uri`, `Issuer.C172_others_untouched`, `Issuer.C172_registered_and_kept`, `Issuer.C172_registered_client_served`, `Issuer.C172_violated_defaults`, `Issuer.C172_violated_no_token`, `Issuer.C175_keep_your_tokens`, `Issuer.C175_strangers_do_not_interfere`, `Issuer.C178_expired_request_uri_refused`, `Issuer.C178_expired_session_refused_partial`, `Issuer.C178_expired_value_refused`, `Issuer.C179_code_given_iff`, `Issuer.C179_pushed_iff`, `Issuer.C180_configuration_published_partial`, `Issuer.C180_unpublished_never_issued`, `Issuer.C180_violated`, `Issuer.C181_collected_iff`, `Issuer.C181_credential_given_iff`, `Issuer.C181_deferred_iff`, `Issuer.C18_offer_redeemable`, `Issuer.C195_bound_to_last_key_partial`, `Issuer.C195_other_keys_get_nothing`, `Issuer.C196_every_claim_issued`, `Issuer.C196_limits_forgotten`, `Issuer.C196_limits_forgotten_overlap`, `Issuer.C196_named_in_request_partial`, `Issuer.C198_code_lost`, `Issuer.C198_credential_repeatable_partial`, `Issuer.C198_transaction_lost`, `Issuer.C19_by_reference_once_unchanged`, `Issuer.C204_may_expunge_partial`, `Issuer.C20_fetch_ends_a_session`, `Issuer.C21_one_transaction_code_guess`, `Issuer.C22_deferred_live_token_and_nonce`, `Issuer.C22_live_token_and_nonce`, `Issuer.C23_empty_proof_list_accepted`, `Issuer.C23_proofs_bound_to_nonce_partial`, `Issuer.C24_nonce_rotates`, `Issuer.C24_old_proof_refused`, `Issuer.C25_no_replay_same_token_partial`, `Issuer.C25_proof_replayed`, `Issuer.C26_claims_from_authorized_dataset`, `Issuer.C27_unauthorized_refused`, `Issuer.C28_issued_within`, `Issuer.C28_subject_consistent`, `Issuer.C29_invalid_proof_recoverable`, `Issuer.C30_only_own_session`, `Issuer.C31_answered_transaction_spent`, `Issuer.C31_deferred_is_original_request`, `Issuer.C31_transaction_single_use`, `Issuer.C32_pending_never_pollable`, `Issuer.C33_notifications_always_refused`, `Issuer.C86_codes_refused_after_answer_partial`, `Issuer.C86_used_values_refused_partial`, `Issuer.C87_issued_within`, `Issuer.C87_subject_consistent`, `Issuer.C88_proof_refused_after_answer_partial`, `Issuer.C91_acceptable_request_gets_code`, `Issuer.C93_credential_issued`, `Issuer.C93_credential_issued_by_format`, `Issuer.C94_acceptable_request_can_be_pushed`, `Issuer.C95_offer_to_credential`, `Issuer.C95_token_gets_credential`, `Issuer.C96_authorization_to_credential`, `Issuer.C97_deferred_credential_collected`, `Issuer.C98_no_panic_overlap_partial`, `Issuer.C98_no_panic_partial`, `Issuer.C98_unimplemented_format_panics`, `Issuer.C99_expired_stays_expired`, `Issuer.C99_expired_stays_expired_any_key`, `Issuer.Demo.C178_violated_session_revived`, `Issuer.Demo.C195_two_keys_one_credential`, `Issuer.Demo.C196_more_than_asked`, `Issuer.Demo.C86_overlapping_guesses`, `Issuer.Demo.C86_overlapping_redeemed_twice`, `Issuer.Demo.C88_overlapping_nonce_lost`, `Issuer.Demo.C88_overlapping_proof_used_twice`, `Issuer.ExpungeDemo.C204_violated_last_second`, `Issuer.ExpungeDemo.C204_violated_registration`, `Macros.C131_authorization_request_made_partial`, `Macros.C131_authorization_request_partial`, `Macros.C131_authorizations_agree`, `Macros.C131_claims_lost`, `Macros.C131_credential_request_partial`, `Macros.C131_credentials_agree`, `Macros.C131_locations_lost`, `Macros.C131_mandatory_misread`, `Macros.C131_offer_request_partial`, `Macros.C131_response_type_lost`, `Macros.C131_token_request_partial`, `Macros.C131_two_details_never`, `Macros.C131_two_grants_never`, `Macros.C131_verifier_needed`, `Mdl.C158_reads_back`, `Mdl.C159_envelope_partial`, `Mdl.C159_violated_items`, `Mdl.C159_violated_mso`, `Mdl.C160_digest_of_tagged_item`, `Mdl.C161_own_salt`, `Mdl.C161_salts_differ`, `Mdl.C162_violated_mdl_fails`, `Mdl.C162_violated_never_stored`, `Mdl.C197_other_types_never_made`, `Mdl.C197_type_of_document_partial`, `Mdl.C60_ids_in_range_partial`, `Mdl.Demo.C197_photo_id_is_a_licence`, `Server.C138_code_needs_login_partial`, `Server.C138_form_token_passes_for_user`, `Server.C138_one_login_serves_all`, `Server.C139_state_never_returned`, `Server.C140_code_to_registered_uri_partial`, `Server.C140_error_sent_to_any_uri`, `Server.C141_direct_request_goes_through_partial`, `Server.C141_form_of_push_refused`, `Server.C141_no_codes_if_push_required`, `Server.C141_push_gets_a_form`, `Server.C142_api_requests_addressed_partial`, `Server.C142_host_ignored`, `Server.C142_no_code_without_issuer`, `Server.C142_token_request_addressed_partial`, `Server.C145_login_leads_to_its_request`, `Server.C145_login_needs_form_partial`, `Server.C145_token_used_once_partial`, `Server.C145_user_name_passes`, `Server.C165_asks_as_host`, `Server.C165_body_does_not_name`, `Server.C165_fetched_where_made`, `Server.C165_registered_only`, `Server.C166_fetched_ever_after_partial`, `Server.C167_success_is_200_partial`, `Server.C167_violated_callers_fault_is_500`, `Server.C167_violated_verifier`, `Server.C168_code_arrives_partial`, `Server.C168_error_arrives_partial`, `Server.C168_violated_error_brings_code`, `Server.C168_violated_query_hides_code`, `Server.C168_violated_quote_loses_error`, `Server.C174_alone_as_in_turn`, `Server.C174_code_needs_login_partial`, `Server.C174_code_redeemed_once`, `Server.C174_endpoints_as_called`, `Server.C174_login_leads_to_its_request`, `Server.C174_nobody_blocks`, `Server.C174_token_used_once_partial`, `Server.C174_violated_form_lost`, `Server.C174_violated_user_put_out`, `Server.Demo.C168_violated_quoted_scope`, `Status.C190_control_character_loses_error`, `Status.C190_detail_replaces_type`, `Status.C190_error_json_partial`, `Status.C190_error_serializes_partial`, `Status.C45_erased_example`, `Status.C46_message_at_end_panics`, `Status.C47_credential_always_fails`, `Verifier.C176_keep_your_state`, `Verifier.C176_requests_do_not_interfere`, `Verifier.C177_good_when_it_came`, `Verifier.C177_refused_for_a_reason`, `Verifier.C192_anyone_presents`, `Verifier.C192_credentials_are_signed_partial`, `Verifier.C192_subject_ignored`, `Verifier.C193_not_expired_partial`, `Verifier.C193_status_and_start_ignored`, `Verifier.C194_iss_ignored`, `Verifier.C194_issuer_ignored`, `Verifier.C198_response_repeatable`, `Verifier.C204_verifier_accepts_no_more_partial`, `Verifier.C204_verifier_in_time_partial`, `Verifier.C51_request_stored`, `Verifier.C51_retrievable`, `Verifier.C52_accepted_answers`, `Verifier.C52_answers_accepted`, `Verifier.C53_answered_once`, `Verifier.C53_rejected_unchanged`, `Verifier.C54_evicted_refused_partial`, `Verifier.C54_expiry_ignored`, `Verifier.C55_audience_ignored`, `Verifier.C55_jwt_presentations_verified_partial`, `Verifier.C89_accepted_answers`, `Verifier.C89_answered_once_partial`, `Verifier.Demo.C193_not_yet_valid_accepted`, `Verifier.Demo.C54_expired_request_answered`, `Verifier.Demo.C55_other_audience_accepted`, `Verifier.Demo.C55_stolen_credential_accepted`, `Verifier.Demo.C89_overlapping_both_accepted`, `Verifier.ExpungeDemo.C204_violated_presentation`, `Wire.C116_comes_back_iff`, `Wire.C116_definition_beside_members_dropped`, `Wire.C116_dictionary_comes_back_iff`, `Wire.C116_read_is_stable`, `Wire.C116_reserved_names_unreadable`, `Wire.C117_comes_back_iff`, `Wire.C117_format_beside_configuration_dropped`, `Wire.C117_malformed_claims_dropped`, `Wire.C117_malformed_narrowing_dropped`, `Wire.C117_read_is_stable`, `Wire.C117_sd_jwt_becomes_mdoc`, `Wire.C118_empty_list_is_request`, `Wire.C118_extended_request_refused`, `Wire.C118_json_uri_becomes_empty_request`, `Wire.C118_repeated_parameter_accepted`, `Wire.C118_request_round_trip_partial`, `Wire.C118_unknown_parameter_refused`, `Wire.C118_uri_needs_another_parameter`, `Wire.C118_uri_unreadable`, `Wire.C119_claim_named_id_becomes_subject`, `Wire.C119_claim_named_id_unreadable`, `Wire.C119_credential_comes_back_iff`, `Wire.C119_empty_proofs_become_one`, `Wire.C119_presentation_comes_back_iff`, `Wire.C119_read_is_stable`, `Wire.C119_standard_status_unreadable`, `Wire.C119_token_carries_credential`, `Wire.C119_token_carries_presentation`, `Wire.C120_claim_named_id_unreadable`, `Wire.C120_deferred_credential_can_be_read_partial`, `Wire.C120_issued_credential_can_be_read_partial`, `Wire.C121_requests_off_the_wire`, `Wire.C121_same_answers`, `Wire.C121_same_under_any_schedule`, `Wire.C121_sd_jwt_kept_as_mdoc`, `Wire.C121_state_comes_back_iff`, `Wire.C121_stored_states_readable`, `Wire.C122_same_answers`, `Wire.C122_same_under_any_schedule`, `Wire.C122_state_comes_back_iff`, `Wire.C122_stored_states_readable`, `Wire.C123_ampersand_unreadable`, `Wire.C123_bracketed_path_unreadable`, `Wire.C123_query_recognized`, `Wire.C123_quotes_change_request`, `Wire.C123_request_round_trip_partial`, `Wire.C123_same_device_request_reaches_wallet_partial`, `Wire.C123_url_unreadable`, `Wire.C124_answer_comes_back_iff`, `Wire.C124_named_object_read`, `Wire.C124_object_form_unreadable`, `Wire.C124_reply_round_trip`, `Wire.C124_signed_answer_round_trip`, `Wire.C124_signed_request_round_trip`, `Wire.C124_unknown_member_refused`, `Wire.C125_authorization_reply`, `Wire.C125_create_offer`, `Wire.C125_credential_request_iff`, `Wire.C125_credential_response_iff`, `Wire.C125_deferred_request`, `Wire.C125_notification`, `Wire.C125_offer_reply`, `Wire.C125_offer_request`, `Wire.C125_offered`, `Wire.C125_pushed_reply_iff`, `Wire.C125_signed_response`, `Wire.C125_token_request_iff`, `Wire.C125_token_request_stable`, `Wire.C125_token_response_iff`, `Wire.C126_anonymous_access_has_no_default`, `Wire.C126_client_comes_back_iff_partial`, `Wire.C126_endpoint_moves`, `Wire.C126_issuer_metadata_comes_back_iff`, `Wire.C126_issuer_metadata_stable`, `Wire.C126_registration_round_trip_partial`, `Wire.C126_server_metadata_round_trip`, `Wire.C126_two_endpoints_unreadable`, `Wire.C127_narrowed_sd_jwt_becomes_mdoc`, `Wire.C127_text_makes_no_difference_partial`, `Wire.C127_wallet_collects_offer_over_text`, `Wire.C128_client_partial`, `Wire.C128_client_with_contacts_refused`, `Wire.C128_configuration`, `Wire.C128_credential`, `Wire.C128_credential_claims`, `Wire.C128_credential_offer`, `Wire.C128_credential_offer_bare`, `Wire.C128_credential_request_by_format`, `Wire.C128_credential_request_by_identifier`, `Wire.C128_credential_response`, `Wire.C128_detail_by_configuration`, `Wire.C128_issuer_displays_refused`, `Wire.C128_issuer_metadata_partial`, `Wire.C128_named_format`, `Wire.C128_nameless_claims_refused`, `Wire.C128_offered`, `Wire.C128_pre_authorized_grant`, `Wire.C128_presentation_claims`, `Wire.C128_pushed_reply`, `Wire.C128_request_object`, `Wire.C128_server_metadata_partial`, `Wire.C128_status_refused`, `Wire.C128_token_request_code`, `Wire.C128_token_request_pre_authorized`, `Wire.C128_token_response_partial`, `Wire.C128_token_type_refused`, `Wire.C128_w3c_format`, `Wire.C129_accepted_over_text_iff`, `Wire.C129_text_makes_no_difference`, `Wire.C130_everything_can_be_kept`, `Wire.C130_issuance_comes_back_iff`, `Wire.C130_kinds_apart`, `Wire.C130_narrowed_sd_jwt_comes_back_as_mdoc`, `Wire.C130_presentation_comes_back_iff`, `Wire.C130_text_store_makes_no_difference_partial`, `Wire.C146_no_token_for_authorized_selection`, `Wire.C146_no_token_for_selection`, `Wire.C146_selection_not_read`, `Wire.C146_selection_not_sent`, `Wire.C146_token_request_arrives_partial`, `Wire.C147_presentations_not_read`, `Wire.C147_presentations_not_sent`, `Wire.C147_state_arrives_partial`, `Wire.C147_verifier_accepts_nothing`, `Wire.C147_wallet_presents_nothing`, `Wire.C148_details_lost`, `Wire.C148_details_not_read`, `Wire.C148_redirect_changes_client`, `Wire.C148_redirect_leads_back_partial`, `Wire.C189_answer_understood`, `Wire.C189_left_out`, `Wire.C189_request_understood`, `Wire.C189_served`, `Wire.C191_panics_iff`, `Wire.C191_space_refused`, `Wire.C191_text_comes_back_partial`, `Wire.C205_front_end_understood`, `Wire.C205_half_pair_refused`, `Wire.C205_offer_link_read`, `Wire.C205_one_meaning`, `Wire.C205_read_iff`, `Wire.C205_respelled`, `Wire.C205_sends_json`, `Wire.C209_malformed_refused_partial`, `Wire.C209_violated_answered_in_the_clear`, `Wire.Macro.C131_authorization_request_partial`, `Wire.Macro.C131_claims_dropped`, `Wire.Macro.C131_create_offer_request_partial`, `Wire.Macro.C131_credential_request_partial`, `Wire.Macro.C131_remarks_become_claims`, `Wire.Macro.C131_response_type_ignored`, `Wire.Macro.C131_takes_authorization_by_detail`, `Wire.Macro.C131_takes_authorization_by_scope`, `Wire.Macro.C131_takes_create_offer`, `Wire.Macro.C131_takes_credential_request`, `Wire.Macro.C131_takes_token_request`, `Wire.Macro.C131_token_request_partial`
* **Quot.sound, propext**: `C35_mandatory_claims`, `C36_supported_check_partial`, `C36_unsupported_claim_example`, `C36_unsupported_claims_accepted`, `C57_lookup`, `C58_vc_round_trip`, `C58_vp_round_trip`, `Issuer.C17_offers_supported`, `Issuer.C20_fetch_removes_anything`, `Issuer.C34_registration_needs_state`, `Issuer.C92_offer_created_iff`, `Issuer.C98_no_servers_panics`, `Macros.C131_offers_agree`, `Macros.C131_tokens_agree`, `Mdl.C59_digest_ids_unique`, `Mdl.C61_elements_digested_once`, `Mdl.C61_ends`, `Mdl.C61_non_object_refused`, `Mdl.C75_device_key_is_issuers`, `Mdl.C76_signature_not_cose`, `Mdl.Demo.C60_negative_id`, `Server.Datasets.C143_known_subjects_served_partial`, `Server.Datasets.C144_available_after_first_asking_partial`, `Status.C44_revocation_bits`, `Status.C45_neighbour_erased`, `Status.C45_no_overlap_partial`, `Status.C46_no_panic_partial`, `Status.C74_published_text_not_bits`, `Verifier.C51_request_object_signed`, `Wire.C119_evidence_members_dropped`, `Wire.C122_one_condition_per_filter`, `Wire.C125_bad_assertion_dropped`, `Wire.C127_metadata_can_be_published`, `Wire.C128_answer_partial`, `Wire.C128_authorization_reply`, `Wire.C128_capable_server_refused`, `Wire.C128_code_grant`, `Wire.C128_create_offer`, `Wire.C128_credential_definition`, `Wire.C128_credential_display`, `Wire.C128_credential_issuer`, `Wire.C128_deferred_request`, `Wire.C128_definition`, `Wire.C128_descriptor`, `Wire.C128_direct_mapping_refused`, `Wire.C128_field`, `Wire.C128_filter_refused`, `Wire.C128_image`, `Wire.C128_mapping_partial`, `Wire.C128_notification`, `Wire.C128_redirect`, `Wire.C128_silent_server_refused`, `Wire.C128_single_presentation_refused`, `Wire.C128_subject`, `Wire.C189_unknown_flow`, `Wire.Macro.C131_any_order`, `Wire.Macro.C131_narrowing_token_refused`, `Wire.Macro.C131_several_details_refused`, `Wire.Macro.C131_several_grants_refused`, `Wire.Macro.C131_type_unchecked`
* **no axioms**: `C58_data_integrity_unsupported`, `Wire.C127_server_metadata_can_be_published`
* **propext**: `App.C207_published_endpoints_ignored`, `C39_quota_is_a_list`, `C57_values_kept`, `Issuer.C20_only_named_entry_partial`, `Server.Datasets.C143_unknown_subject_ends_it`, `Server.Datasets.C144_pending_again`, `Status.C46_overflow`, `Verifier.C55_object_proof_unchecked`, `Wire.C116_empty_set_becomes_claim`, `Wire.C125_bad_proof_dropped`, `Wire.C128_filter_partial`, `Wire.C128_linked_data_refused`, `Wire.Macro.C131_borrowed_refused`, `Wire.Macro.C131_repeated_member`, `Wire.Macro.C131_send_type_misread`
