import Verif.Model.Http
import Verif.Lemmas.Find
import Verif.Lemmas.FindText
import Verif.Props.StringUtil

/-!
# C84 Requests and headers of a session
-/

namespace Kml.Http

open Kml
open Kml.StringUtil (splitStringUsing)

/-! ### Headers -/

/-- **C84, finding a header.** The value found is that of the first header with the name. -/
theorem C84_find (name value : Str) (h : Headers) :
    findHeader name h = some value ↔ ∃ before after, h = before ++ (name, value) :: after ∧ ∀ x ∈ before, x.1 ≠ name := by
  induction h with
  | nil =>
    constructor
    · intro h; cases h
    · rintro ⟨a, b, h, _⟩
      exact absurd h.symm (by simp)
  | cons x h ih =>
    unfold findHeader
    by_cases hx : name = x.1
    · rw [if_pos hx]
      constructor
      · intro hv
        cases hv
        exact ⟨[], h, by rw [hx]; rfl, fun y hy => absurd hy List.not_mem_nil⟩
      · rintro ⟨a, b, h1, h2⟩
        cases a with
        | nil => cases h1; rfl
        | cons y a =>
          cases h1
          exact absurd hx.symm (h2 _ (List.mem_cons_self ..))
    · rw [if_neg hx, ih]
      constructor
      · rintro ⟨a, b, rfl, h2⟩
        refine ⟨x :: a, b, rfl, fun y hy => ?_⟩
        rcases List.mem_cons.1 hy with rfl | hy
        · exact fun he => hx he.symm
        · exact h2 y hy
      · rintro ⟨a, b, h1, h2⟩
        cases a with
        | nil => cases h1; exact absurd rfl hx
        | cons y a =>
          cases h1
          exact ⟨a, b, rfl, fun z hz => h2 z (List.mem_cons_of_mem _ hz)⟩

/-- **C84, appending headers** puts all of them, in order, behind those that are there. -/
theorem C84_append (src dest : Headers) : appendHeaders src dest = dest ++ src := by
  unfold appendHeaders
  induction src generalizing dest with
  | nil => exact (List.append_nil _).symm
  | cons h src ih => rw [List.foldl_cons, ih]; simp

/-! ### Login -/

/-- **C84, login.** A login succeeds exactly if the request is answered with a text that has `Auth=` in it.  The token is
then what follows the first `Auth=`, without its last character; one header with the token is added, and nothing else
changes.  Otherwise nothing changes. -/
theorem C84_login (send : Send) (c c' : Client) (service email password : Str) :
    (c.login send service email password = (true, c') ↔
      ∃ before after, send c (loginRequest c service email password) = some (before ++ chars! "Auth=" ++ after) ∧
        (∀ j < before.length, ¬ chars! "Auth=" <+: (before ++ chars! "Auth=" ++ after).drop j) ∧
        c'.token = after.dropLast ∧ c'.application = c.application ∧
        c'.headers = c.headers ++ [(chars! "Authorization", chars! "GoogleLogin auth=" ++ c'.token)]) ∧
    (c.login send service email password = (false, c') →
      c' = c ∧ ∀ response, send c (loginRequest c service email password) = some response → ¬ chars! "Auth=" <:+: response) := by
  unfold Client.login
  rcases Option.eq_none_or_eq_some (send c (loginRequest c service email password)) with hs | ⟨response, hs⟩
  · rw [hs]
    refine ⟨⟨(fun h => by cases h), ?_⟩, ?_⟩
    · rintro ⟨_, _, h, _⟩; cases h
    · intro h
      cases h
      exact ⟨rfl, fun _ h => by cases h⟩
  · rw [hs]
    dsimp only
    rcases Option.eq_none_or_eq_some (findFrom (chars! "Auth=") response) with hf | ⟨i, hf⟩
    · rw [hf]
      refine ⟨⟨(fun h => by cases h), ?_⟩, ?_⟩
      · rintro ⟨a, b, h, _⟩
        cases h
        exact absurd ⟨a, b, rfl⟩ (findFrom_not_infix hf)
      · intro h
        cases h
        exact ⟨rfl, fun r h => by cases h; exact findFrom_not_infix hf⟩
    · rw [hf]
      dsimp only
      obtain ⟨a, b, rfl, rfl, hfirst⟩ := findFrom_cut hf
      have hdrop : (a ++ chars! "Auth=" ++ b).drop (a.length + 5) = b := List.drop_left' (by simp)
      rw [hdrop]
      refine ⟨⟨?_, ?_⟩, (fun h => by cases h)⟩
      · intro h
        cases h
        exact ⟨a, b, rfl, hfirst, rfl, rfl, rfl⟩
      · rintro ⟨a', b', h, h2, h3, h4, h5⟩
        have h := Option.some.inj h
        have ha : a'.length = a.length := by
          rcases Nat.lt_trichotomy a'.length a.length with hlt | heq | hgt
          · refine absurd ?_ (hfirst _ hlt)
            rw [h, List.append_assoc, List.drop_left]
            exact ⟨_, rfl⟩
          · exact heq
          · refine absurd ?_ (h2 _ hgt)
            rw [← h, List.append_assoc, List.drop_left]
            exact ⟨_, rfl⟩
        have hb : b = b' := by
          have := congrArg (List.drop (a.length + 5)) h
          rw [hdrop, ← ha, List.drop_left' (by simp)] at this
          exact this
        subst hb
        obtain ⟨app, tok, hd⟩ := c'
        dsimp only at h3 h4 h5
        subst h3
        subst h4
        subst h5
        rfl

/-- **C84, the token.** If the answer ends in `Auth=`, the token and a line feed, with no `Auth=` before, the token is just
that.

The full property is about every answer with a line `Auth=` and a token; if other lines follow, they become part of the
token (`C84_lines_violated`), and without a line feed at the end the token is cut (`C84_cut_violated`). -/
theorem C84_token_partial (send : Send) (c : Client) (service email password before token : Str)
    (hs : send c (loginRequest c service email password) = some (before ++ chars! "Auth=" ++ token ++ chars! "\n"))
    (h : ∀ j < before.length, ¬ chars! "Auth=" <+: (before ++ chars! "Auth=" ++ (token ++ chars! "\n")).drop j) :
    c.login send service email password =
      (true, ⟨c.application, token,
        c.headers ++ [(chars! "Authorization", chars! "GoogleLogin auth=" ++ token)]⟩) := by
  refine ((C84_login send c _ service email password).1).2 ⟨before, token ++ chars! "\n", ?_, h, ?_, rfl, rfl⟩
  · rw [hs, List.append_assoc]
  · exact (List.dropLast_concat ..).symm

/-- **C84 fails: lines after the token** become part of it, and so of the header. -/
theorem C84_lines_violated :
    ((Client.new (chars! "a")).login (fun _ _ => some (chars! "Auth=t\nSID=s\n")) [] [] []).2.token = chars! "t\nSID=s" := by
  decide

/-- **C84 fails: no line feed at the end.** The last character of the token is lost. -/
theorem C84_cut_violated :
    ((Client.new (chars! "a")).login (fun _ _ => some (chars! "Auth=tok")) [] [] []).2.token = chars! "to" := by
  decide

/-- **C84, the form.** A login posts one form to Google's address for logins, with no headers but those of the client.  If none of
the texts has an `&` in it, the form has exactly the five fields.

The full property is about all texts; they are not escaped (`C84_form_violated`). -/
theorem C84_form_partial (c : Client) (service email password : Str) (h1 : '&' ∉ service) (h2 : '&' ∉ email)
    (h3 : '&' ∉ password) (h4 : '&' ∉ c.application) :
    ∃ form, loginRequest c service email password =
        ⟨.post, chars! "https://www.google.com/accounts/ClientLogin", none, some form⟩ ∧
      splitStringUsing form (chars! "&") =
        some (.ok [chars! "Email=" ++ email, chars! "Passwd=" ++ password, chars! "accountType=HOSTED_OR_GOOGLE",
          chars! "source=" ++ c.application, chars! "service=" ++ service]) := by
  refine ⟨_, rfl, ?_⟩
  have hno : ∀ {k v : Str}, '&' ∉ k → '&' ∉ v → '&' ∉ k ++ v := by
    intro k v hk hv hm
    exact (List.mem_append.1 hm).elim hk hv
  have := StringUtil.C05_join_split '&' [chars! "Email=" ++ email, chars! "Passwd=" ++ password,
    chars! "accountType=HOSTED_OR_GOOGLE", chars! "source=" ++ c.application, chars! "service=" ++ service] (by simp) (by
      intro p hp
      simp only [List.mem_cons, List.not_mem_nil, or_false] at hp
      rcases hp with rfl | rfl | rfl | rfl | rfl
      · exact hno (by decide) h2
      · exact hno (by decide) h3
      · decide
      · exact hno (by decide) h4
      · exact hno (by decide) h1)
  rw [← this]
  congr 1
  simp [loginForm, StringUtil.joinWith]

example : '&' ∉ chars! "local" ∧ '&' ∉ chars! "me@x.org" ∧ '&' ∉ chars! "pw" ∧ '&' ∉ (Client.new (chars! "app")).application := by
  decide

/-- **C84 fails: texts with `&`.** A password `p&service=x` adds a field of its own. -/
theorem C84_form_violated :
    splitStringUsing (loginForm (Client.new (chars! "a")) (chars! "local") (chars! "e") (chars! "p&service=x")) (chars! "&") =
      some (.ok [chars! "Email=e", chars! "Passwd=p", chars! "service=x", chars! "accountType=HOSTED_OR_GOOGLE",
        chars! "source=a", chars! "service=local"]) := by
  decide +kernel

/-! ### Histories -/

theorem step_keeps (send : Send) (c : Client) (op : Op) : ∃ l, (c.step send op).headers = c.headers ++ l := by
  cases op with
  | addHeader n v => exact ⟨[(n, v)], rfl⟩
  | login s e p =>
    show ∃ l, (c.login send s e p).2.headers = c.headers ++ l
    rcases hr : c.login send s e p with ⟨ok, c'⟩
    cases ok with
    | true =>
      obtain ⟨_, _, _, _, _, _, h⟩ := (C84_login send c c' s e p).1.1 hr
      exact ⟨_, h⟩
    | false =>
      obtain ⟨rfl, _⟩ := (C84_login send c c' s e p).2 hr
      exact ⟨[], (List.append_nil _).symm⟩

theorem run_keeps (send : Send) (ops : List Op) (c : Client) : ∃ l, (c.run send ops).headers = c.headers ++ l := by
  induction ops generalizing c with
  | nil => exact ⟨[], (List.append_nil _).symm⟩
  | cons op ops ih =>
    obtain ⟨l1, h1⟩ := step_keeps send c op
    obtain ⟨l2, h2⟩ := ih (c.step send op)
    exact ⟨l1 ++ l2, by rw [← List.append_assoc, ← h1, ← h2]; rfl⟩

/-- **C84, histories.** Whatever is done to a client, in any order: the first header is the application's `User-Agent`;
headers are never lost, changed or put in another order; a header that is added and the header of a login that succeeds
are there from then on. -/
theorem C84_history (send : Send) (application : Str) (before after : List Op) :
    (((Client.new application).run send before).headers.head? =
      some (chars! "User-Agent", application ++ chars! " GData-C++/1.0")) ∧
    (((Client.new application).run send before).headers <+: ((Client.new application).run send (before ++ after)).headers) ∧
    (∀ name value, (name, value) ∈ ((Client.new application).run send (before ++ .addHeader name value :: after)).headers) ∧
    (∀ service email password c', (((Client.new application).run send before).login send service email password) = (true, c') →
      (chars! "Authorization", chars! "GoogleLogin auth=" ++ c'.token) ∈
        ((Client.new application).run send (before ++ .login service email password :: after)).headers) := by
  have hrun : ∀ ops ops' : List Op, (Client.new application).run send (ops ++ ops') =
      ((Client.new application).run send ops).run send ops' := by
    intro ops ops'
    exact List.foldl_append
  refine ⟨?_, ?_, ?_, ?_⟩
  · obtain ⟨l, hl⟩ := run_keeps send before (Client.new application)
    rw [hl]
    show some (_, application ++ chars! " GData-C++/" ++ chars! "1.0") = _
    rw [List.append_assoc]
    rfl
  · rw [hrun]
    obtain ⟨l, hl⟩ := run_keeps send after ((Client.new application).run send before)
    exact ⟨l, hl.symm⟩
  · intro name value
    rw [hrun]
    obtain ⟨l, hl⟩ := run_keeps send after (((Client.new application).run send before).addHeader name value)
    show _ ∈ ((((Client.new application).run send before).addHeader name value).run send after).headers
    rw [hl]
    show (name, value) ∈ _ ++ [(name, value)] ++ l
    simp
  · intro service email password c' h
    rw [hrun]
    obtain ⟨l, hl⟩ := run_keeps send after c'
    show _ ∈ (((((Client.new application).run send before).login send service email password).2).run send after).headers
    rw [h, hl]
    obtain ⟨_, _, _, _, _, _, h5⟩ := (C84_login send _ c' service email password).1.1 h
    rw [h5]
    simp

/-- **C84 fails: logging in again.** The first header for `Authorization` has still the first token. -/
theorem C84_again_violated :
    findHeader (chars! "Authorization")
      ((Client.new (chars! "a")).run (fun c _ => some (if c.token = [] then chars! "Auth=1\n" else chars! "Auth=2\n"))
        [.login [] [] [], .login [] [] []]).headers = some (chars! "GoogleLogin auth=1") := by
  decide

/-! ### Requests -/

theorem lines_fold (h : Headers) (s : Str) : h.foldl (fun s h => s ++ formatHeader h ++ chars! "\n") s =
    s ++ h.flatMap fun x => x.1 ++ chars! ": " ++ x.2 ++ chars! "\n" := by
  induction h generalizing s with
  | nil => exact (List.append_nil _).symm
  | cons x h ih => rw [List.foldl_cons, ih, List.flatMap_cons]; simp [formatHeader]

/-- RFC 2616 5.1.1: the methods and the words for them. -/
def methodWords : List (Method × Str) :=
  [(.options, chars! "OPTIONS"), (.get, chars! "GET"), (.head, chars! "HEAD"), (.post, chars! "POST"), (.put, chars! "PUT"),
   (.delete, chars! "DELETE"), (.trace, chars! "TRACE"), (.connect, chars! "CONNECT")]

theorem methodString_iff (x : Method) (s : Str) : methodString x = some s ↔ (x, s) ∈ methodWords := by
  cases x <;> simp [methodString, methodWords, eq_comm]

/-- **C84, a request as text.** With a method the answer is the method, the address and then the headers of the client and
those of the request, each one on its line, in order; it is put behind what the answer was before. -/
theorem C84_request (c : Client) (r : Request) (response out : Str) :
    c.sendRequest r response = .ok out ↔ ∃ m, (r.method, m) ∈ methodWords ∧
      out = response ++ (m ++ chars! " " ++ r.uri ++ chars! "\n") ++
        (c.headers ++ r.headers.getD []).flatMap fun x => x.1 ++ chars! ": " ++ x.2 ++ chars! "\n" := by
  simp only [← methodString_iff]
  unfold Client.sendRequest
  rcases Option.eq_none_or_eq_some (methodString r.method) with hm | ⟨m, hm⟩
  · rw [hm]
    constructor
    · intro h; cases h
    · rintro ⟨_, h, _⟩; cases h
  · rw [hm]
    dsimp only
    rw [lines_fold, lines_fold, List.flatMap_append]
    constructor
    · intro h
      cases h
      refine ⟨m, rfl, ?_⟩
      simp only [List.append_assoc]
    · rintro ⟨_, h, rfl⟩
      cases h
      simp only [List.append_assoc]

/-- **C84, lines.** If no text has a line feed in it, the request has one line for the method and the address and one for
each header.

The full property is about all texts; they are not checked (`C84_feed_violated`). -/
theorem C84_lines_partial (c : Client) (r : Request) (m : Str) (hm : (r.method, m) ∈ methodWords) (h1 : '\n' ∉ r.uri)
    (h2 : ∀ x ∈ c.headers ++ r.headers.getD [], '\n' ∉ x.1 ∧ '\n' ∉ x.2) :
    ∃ out, c.sendRequest r [] = .ok out ∧ splitStringUsing out (chars! "\n") =
      some (.ok ((m ++ chars! " " ++ r.uri) :: (c.headers ++ r.headers.getD []).map (fun x => x.1 ++ chars! ": " ++ x.2) ++
        [[]])) := by
  refine ⟨_, (C84_request c r [] _).2 ⟨m, hm, rfl⟩, ?_⟩
  have hmeth : ∀ (x : Method) (s : Str), methodString x = some s → '\n' ∉ s := by
    intro x s h
    cases x <;> cases h <;> decide
  have key : ∀ (l : Str) (ls : List Str), StringUtil.joinWith ['\n'] (l :: ls ++ [[]]) =
      l ++ chars! "\n" ++ ls.flatMap fun y => y ++ chars! "\n" := by
    intro l ls
    induction ls generalizing l with
    | nil => simp [StringUtil.joinWith]
    | cons y ls ih =>
      show StringUtil.joinWith ['\n'] (l :: (y :: ls ++ [[]])) = _
      have : StringUtil.joinWith ['\n'] (l :: (y :: ls ++ [[]])) = l ++ ['\n'] ++ StringUtil.joinWith ['\n'] (y :: ls ++ [[]]) := rfl
      rw [this, ih, List.flatMap_cons]
  have := StringUtil.C05_join_split '\n'
    ((m ++ chars! " " ++ r.uri) :: (c.headers ++ r.headers.getD []).map (fun x => x.1 ++ chars! ": " ++ x.2) ++ [[]])
    (by simp) (by
      intro p hp
      rcases List.mem_append.1 hp with hp | hp
      · rcases List.mem_cons.1 hp with rfl | hp
        · intro hc
          rcases List.mem_append.1 hc with hc | hc
          · rcases List.mem_append.1 hc with hc | hc
            · exact hmeth _ _ ((methodString_iff _ _).2 hm) hc
            · exact absurd hc (by decide)
          · exact h1 hc
        · obtain ⟨x, hx, rfl⟩ := List.mem_map.1 hp
          intro hc
          rcases List.mem_append.1 hc with hc | hc
          · rcases List.mem_append.1 hc with hc | hc
            · exact (h2 x hx).1 hc
            · exact absurd hc (by decide)
          · exact (h2 x hx).2 hc
      · rw [List.mem_singleton.1 hp]
        exact List.not_mem_nil)
  rw [← this, key]
  congr 1
  rw [List.flatMap_map]
  rfl

/-- A client and a request without line feeds. -/
example : ∀ x ∈ ((Client.new (chars! "app")).addHeader (chars! "X") (chars! "1")).headers ++
    (Request.headers ⟨.get, chars! "http://x", some [(chars! "Y", chars! "2")], none⟩).getD [], '\n' ∉ x.1 ∧ '\n' ∉ x.2 := by
  decide

/-- **C84 fails: line feeds.** A header value with a line feed in it gives another line. -/
theorem C84_feed_violated :
    ((Client.new (chars! "a")).addHeader (chars! "X") (chars! "1\nY: 2")).sendRequest ⟨.get, chars! "u", none, none⟩ [] =
      .ok (chars! "GET u\nUser-Agent: a GData-C++/1.0\nX: 1\nY: 2\n") := by
  decide

/-- **C84 fails: no method.** A request without a method is undefined behaviour, although it is one of the values of the
method. -/
theorem C84_method_violated (c : Client) (uri : Str) : c.sendRequest ⟨.none, uri, none, none⟩ [] = .ub := rfl

/-- Two histories, and a login that is answered well. -/
example :
    let send : Send := fun _ r => if r.method = .post then some (chars! "SID=1\nAuth=tok\n") else none
    ((Client.new (chars! "app")).run send [.addHeader (chars! "GData-Version") (chars! "2.0"),
      .login (chars! "local") (chars! "me") (chars! "pw")]).headers =
      [(chars! "User-Agent", chars! "app GData-C++/1.0"), (chars! "GData-Version", chars! "2.0"),
        (chars! "Authorization", chars! "GoogleLogin auth=tok")] := by
  decide

end Kml.Http
