import Verif.Model.Py

/-!
# The data types of XACML 2.0 (appendix A.3) and the Python types of their values
-/
namespace Xacml.Spec

/-- Identifiers and Python types; base64Binary has none. -/
def dataTypes : List (String × NativeType) := [
  ("http://www.w3.org/2001/XMLSchema#string", .str),
  ("http://www.w3.org/2001/XMLSchema#anyURI", .str),
  ("http://www.w3.org/2001/XMLSchema#integer", .int),
  ("http://www.w3.org/2001/XMLSchema#boolean", .bool),
  ("http://www.w3.org/2001/XMLSchema#double", .float),
  ("http://www.w3.org/2001/XMLSchema#date", .datetime),
  ("http://www.w3.org/2001/XMLSchema#dateTime", .datetime),
  ("http://www.w3.org/2001/XMLSchema#time", .datetime),
  ("http://www.w3.org/TR/2002/WD-xquery-operators-20020816#dayTimeDuration", .timedelta),
  ("http://www.w3.org/TR/2002/WD-xquery-operators-20020816#yearMonthDuration", .timedelta),
  ("urn:oasis:names:tc:xacml:1.0:data-type:x500Name", .str),
  ("urn:oasis:names:tc:xacml:1.0:data-type:rfc822Name", .str),
  ("http://www.w3.org/2001/XMLSchema#hexBinary", .int),
  ("http://www.w3.org/2001/XMLSchema#base64Binary", .notImplemented),
  ("urn:oasis:names:tc:xacml:2.0:data-type:ipAddress", .str),
  ("urn:oasis:names:tc:xacml:2.0:data-type:dnsName", .str)]

end Xacml.Spec
