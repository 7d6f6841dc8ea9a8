import Verif.Model.ServiceClient

/-!
# What the file of the client of a service contains
-/

namespace Verif.ServiceClient

/-- What the client of a service says of each version: its name, the name of the method that returns its client, the
package where that client is, and the segment of the path. -/
structure Part where
  name : Text
  method : Text
  package : Text
  segment : Text

/-- What is said of a version: the name of the method is the one of C29, the name of the package is the lower case name of
the version, and the segment is the one of C28. -/
def partFor (v : Version) : Part :=
  { name := v.name.toText, method := Go.nameOf v.annotations v.name, package := v.name.lowerJoined [],
    segment := Binding.segment v.name v.annotations }

/-- The method that returns the client of the root of a version. -/
def Part.lines (p : Part) : List Text := [
  t!"// " ++ p.method ++ t!" returns a reference to a client for version '" ++ p.name ++ t!"'.",
  t!"func (c *Client) " ++ p.method ++ t!"() *" ++ p.package ++ t!".Client {",
  t!"return " ++ p.package ++ t!".NewClient(",
  t!"c.transport,",
  t!"path.Join(c.path, \"" ++ p.segment ++ t!"\"),",
  t!")",
  t!"}"]

/-- The lines of the file of the client of a service. -/
def clientLines (service : Text) (parts : List Part) : List Text :=
  [t!"// Client is the client for service '" ++ service ++ t!"'.",
    t!"type Client struct {",
    t!"transport http.RoundTripper",
    t!"path string",
    t!"}",
    t!"// NewClient creates a new client for the service '" ++ service ++ t!"' using the",
    t!"// given transport to send the requests and receive the responses.",
    t!"func NewClient(transport http.RoundTripper, path string) *Client {",
    t!"client := new(Client)",
    t!"client.transport = transport",
    t!"client.path = path",
    t!"return client",
    t!"}"] ++ parts.flatMap Part.lines

end Verif.ServiceClient
