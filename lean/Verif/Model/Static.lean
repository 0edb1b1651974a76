import Verif.Model.Device

/-!
# The static files of the web server: `server.serveStatic` in `src/webserver.cpp` lines 227-230

`serveStatic` belongs to the web server of the ESP8266 core (`StaticRequestHandler`); what it does is an assumption: of the
handlers attached, the first one for the URI is taken; it looks for the file, else for the same name with `.gz`; the `index.htm`
of a folder when the URI ends with a slash.  Cache headers and MIME types are left out.
-/

namespace Wifinfo

/-- The handlers webserver.cpp:227-230: URI and path. -/
def staticPaths : List (Str × Str) :=
  [(bs "/fonts", bs "/fonts"), (bs "/js", bs "/js"), (bs "/css", bs "/css"), (bs "/favicon.ico", bs "/favicon.ico")]

/-- `StaticRequestHandler::canHandle`: when the path is a file, the URI must be its own. -/
def canServe (fileExists : Str → Bool) (h : Str × Str) (uri : Str) : Bool :=
  if fileExists h.2 then decide (uri = h.1) else h.1.isPrefixOf uri

/-- `StaticRequestHandler::handle`: the file that is sent. -/
def serveOne (fileExists : Str → Bool) (h : Str × Str) (uri : Str) : Option Str :=
  if fileExists h.2 then some h.2
  else
    let uri := if uri.getLast? = some 47 then uri ++ bs "index.htm" else uri
    let path := h.2 ++ uri.drop h.1.length
    let path := if (bs ".gz").isSuffixOf path = false ∧ fileExists path = false ∧ fileExists (path ++ bs ".gz") = true then
      path ++ bs ".gz" else path
    if fileExists path then some path else none

/-- The file that the static handlers find for a URI. -/
def serveStatic (fileExists : Str → Bool) (uri : Str) : Option Str :=
  (staticPaths.find? fun h => canServe fileExists h uri).bind fun h => serveOne fileExists h uri

end Wifinfo
