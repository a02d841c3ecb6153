PARTIAL = {
}
NOTES = {}
