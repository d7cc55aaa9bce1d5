import Verif.Model.Basic
import Verif.Model.Lit

/-!
# `HttpClient`: `/repo/src/kml/convenience/http_client.h` and `http_client.cc`

`SendRequest` is virtual: all input and output of a derived class goes through it.  It is a parameter here.
-/

namespace Kml.Http

open Kml

/-- http_client.h 44-54 `HttpMethodEnum`. -/
inductive Method where
  | none | options | get | head | post | put | delete | trace | connect
  deriving DecidableEq, Repr

/-- http_client.cc 36-59 `GetMethodString`: nothing is `NULL`. -/
def methodString : Method → Option Str
  | .none => Option.none
  | .options => some (chars! "OPTIONS")
  | .get => some (chars! "GET")
  | .head => some (chars! "HEAD")
  | .post => some (chars! "POST")
  | .put => some (chars! "PUT")
  | .delete => some (chars! "DELETE")
  | .trace => some (chars! "TRACE")
  | .connect => some (chars! "CONNECT")

/-- http_client.h 41 `StringPairVector`. -/
abbrev Headers := List (Str × Str)

/-- http_client.h 145-151, the members of `HttpClient`. -/
structure Client where
  application : Str
  token : Str
  headers : Headers
  deriving DecidableEq, Repr

/-- http_client.cc 138-144 `PushHeader`, for a vector. -/
def pushHeader (name value : Str) (h : Headers) : Headers := h ++ [(name, value)]

/-- http_client.cc 66-71, the constructor. -/
def Client.new (application : Str) : Client :=
  ⟨application, [], pushHeader (chars! "User-Agent") (application ++ chars! " GData-C++/" ++ chars! "1.0") []⟩

/-- http_client.cc 73-76 `AddHeader`. -/
def Client.addHeader (c : Client) (name value : Str) : Client := { c with headers := pushHeader name value c.headers }

/-- http_client.cc 147-159 `FindHeader`: the value, or nothing for false. -/
def findHeader (name : Str) : Headers → Option Str
  | [] => none
  | h :: hs => if name = h.1 then some h.2 else findHeader name hs

/-- http_client.cc 162-164 `FormatHeader`. -/
def formatHeader (h : Str × Str) : Str := h.1 ++ chars! ": " ++ h.2

/-- http_client.cc 167-174 `AppendHeaders`, for a vector. -/
def appendHeaders (src dest : Headers) : Headers := src.foldl (fun d h => d ++ [h]) dest

/-- What a request is sent with: http_client.cc 109-113 `SendRequest`. -/
structure Request where
  method : Method
  uri : Str
  headers : Option Headers
  data : Option Str
  deriving DecidableEq, Repr

/-- A `SendRequest`: nothing is false; otherwise the text appended to the response. -/
abbrev Send := Client → Request → Option Str

/-- The form http_client.cc 83-87. -/
def loginForm (c : Client) (service email password : Str) : Str :=
  chars! "Email=" ++ email ++ chars! "&Passwd=" ++ password ++ chars! "&accountType=" ++ chars! "HOSTED_OR_GOOGLE" ++
    chars! "&source=" ++ c.application ++ chars! "&service=" ++ service

/-- The request http_client.cc 89. -/
def loginRequest (c : Client) (service email password : Str) : Request :=
  ⟨.post, chars! "https://www.google.com/accounts/ClientLogin", none, some (loginForm c service email password)⟩

/-- http_client.cc 80-106 `Login`: the result and the client afterwards.  `token.size() - 1` of an empty token is `npos`,
which `substr` takes as all of it. -/
def Client.login (send : Send) (c : Client) (service email password : Str) : Bool × Client :=
  match send c (loginRequest c service email password) with
  | none => (false, c)
  | some response =>
    match findFrom (chars! "Auth=") response with
    | none => (false, c)
    | some i =>
      (true,
        { c with
          token := (response.drop (i + 5)).dropLast
          headers := pushHeader (chars! "Authorization")
            (chars! "GoogleLogin auth=" ++ (response.drop (i + 5)).dropLast) c.headers })

/-- http_client.cc 109-131, the default `SendRequest`: the response afterwards.  Appending `NULL` to a string is
undefined. -/
def Client.sendRequest (c : Client) (r : Request) (response : Str) : Outcome Str :=
  match methodString r.method with
  | none => .ub
  | some m =>
    .ok ((r.headers.getD []).foldl (fun s h => s ++ formatHeader h ++ chars! "\n")
      (c.headers.foldl (fun s h => s ++ formatHeader h ++ chars! "\n") (response ++ m ++ chars! " " ++ r.uri ++ chars! "\n")))

/-- http_client.cc 133-135 `FetchUrl`: nothing is false. -/
def Client.fetchUrl (send : Send) (c : Client) (url : Str) : Option Str := send c ⟨.get, url, none, none⟩

/-- What a user of a client may do to it. -/
inductive Op where
  | addHeader (name value : Str)
  | login (service email password : Str)
  deriving DecidableEq, Repr

/-- One step. -/
def Client.step (send : Send) (c : Client) : Op → Client
  | .addHeader name value => c.addHeader name value
  | .login service email password => (c.login send service email password).2

/-- A history. -/
def Client.run (send : Send) (c : Client) (ops : List Op) : Client := ops.foldl (Client.step send) c

end Kml.Http
